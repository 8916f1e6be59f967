import Verif.Lemmas.Layers
/-!
# C17: merging nested settings
-/

namespace Netlab
open Spec

/-- **C17 (leaves).**  A scalar or list in the merged settings is exactly one set in the right
operand, or one set in the left operand that the right operand does not touch: the right
operand wins every conflict, nothing else is lost and nothing else appears. -/
theorem C17_leaves (a b : Val) (ha : a.isDict = true) (hb : b.isDict = true)
    (hub : Val.UniqueKeys b) (p : List String) (w : Val) :
    Val.leafAt (mergeVal a b) p w ↔
      Val.leafAt b p w ∨ (Val.leafAt a p w ∧ Untouched b p) :=
  mergeVal_leaves a b ha hb hub p w

/-- **C17 (right operand wins).**  Every scalar or list in the right operand is in the result. -/
theorem C17_right_wins (a b : Val) (ha : a.isDict = true) (hb : b.isDict = true)
    (hub : Val.UniqueKeys b) (p : List String) (w : Val) (h : Val.leafAt b p w) :
    Val.leafAt (mergeVal a b) p w :=
  (C17_leaves a b ha hb hub p w).2 (Or.inl h)

/-- **C17 (keys).**  The merged dictionary has the keys of both operands, and a key of only one
operand keeps its value. -/
theorem C17_keys (a b : List (String × Val)) (hb : (b.map (·.1)).Nodup) (k : String) :
    (k ∈ (mergeDict a b).map (·.1) ↔ k ∈ a.map (·.1) ∨ k ∈ b.map (·.1)) ∧
    (k ∉ b.map (·.1) → (mergeDict a b).lookup k = a.lookup k) ∧
    (k ∉ a.map (·.1) → (mergeDict a b).lookup k = b.lookup k) := by
  refine ⟨mem_keys_mergeDict a b hb k, ?_, ?_⟩
  · intro h
    rw [lookup_mergeDict a b hb, lookup_eq_none_iff.2 h]
    cases a.lookup k <;> rfl
  · intro h
    rw [lookup_mergeDict a b hb, lookup_eq_none_iff.2 h]
    cases b.lookup k <;> rfl

/-- **C17 (neutral element).**  Merging with empty settings changes nothing, on either side. -/
theorem C17_empty (a : List (String × Val)) (ha : (a.map (·.1)).Nodup) :
    mergeDict a [] = a ∧ mergeDict [] a = a := by
  refine ⟨by rw [mergeDict], ?_⟩
  have gen : ∀ (b a : List (String × Val)), ((a ++ b).map (·.1)).Nodup →
      mergeDict a b = a ++ b := by
    intro b
    induction b with
    | nil => intro a _; simp [mergeDict]
    | cons p r ih =>
      intro a hn
      obtain ⟨k, v⟩ := p
      have hk : k ∉ a.map (·.1) := by
        intro hk
        rw [List.map_append, List.nodup_append] at hn
        exact hn.2.2 k hk k (by simp) rfl
      have hs : mergePair a (k, v) = a ++ [(k, v)] := by
        rw [mergePair, lookup_eq_none_iff.2 hk]
        have := setKey_append a [] k v hk
        simpa [setKey] using this
      rw [mergeDict, hs, ih _ (by simpa using hn)]
      simp
  simpa using gen a [] (by simpa using ha)

/-- **C17 (idempotent).**  Merging settings with themselves changes nothing. -/
theorem C17_idempotent (a : Val) (ha : Val.UniqueKeys a) : mergeVal a a = a := by
  cases a with
  | dict d =>
    rw [mergeVal_dict]
    congr 1
    obtain ⟨h1, h2⟩ := uniqueKeys_dict.1 ha
    have hv : ∀ k v, d.lookup k = some v → mergeVal v v = v := by
      intro k v hk
      have := sizeOf_lookup_lt hk
      exact C17_idempotent v (h2 k v hk)
    have gen : ∀ b : List (String × Val), (∀ p ∈ b, p ∈ d) → mergeDict d b = d := by
      intro b
      induction b with
      | nil => intro _; rw [mergeDict]
      | cons p r ih =>
        intro h
        obtain ⟨k, v⟩ := p
        have hk := lookup_of_mem h1 (h (k, v) (by simp))
        have hs : mergePair d (k, v) = d := by
          rw [mergePair, hk]
          simp only [hv k v hk]
          exact setKey_self hk
        rw [mergeDict, hs]
        exact ih (fun p hp => h p (by simp [hp]))
    exact gen d (fun _ h => h)
  | _ => simp [mergeVal]
termination_by sizeOf a

/-- The middle operand has a scalar or a list where the other two have dictionaries. -/
def Spec.MergeConflict (a b c : Val) : Prop :=
  ∃ p x w z, Val.at a p = some (.dict x) ∧ Val.leafAt b p w ∧ Val.at c p = some (.dict z)

private theorem fold_new (x : List String) : ∀ (b acc : List String), (∀ k ∈ acc, k ∉ x) →
    acc.Nodup → b.Nodup → (∀ k ∈ b, k ∉ acc) →
    b.foldl (fun acc k => if k ∈ x ∨ k ∈ acc then acc else acc ++ [k]) acc =
      acc ++ b.filter (fun k => decide (k ∉ x)) := by
  intro b
  induction b with
  | nil => intro acc _ _ _ _; simp
  | cons k b ih =>
    intro acc h1 h2 h3 h4
    rw [List.foldl_cons]
    rw [List.nodup_cons] at h3
    by_cases hk : k ∈ x
    · rw [if_pos (Or.inl hk), ih acc h1 h2 h3.2 (fun j hj => h4 j (by simp [hj]))]
      simp [hk]
    · have hkacc : k ∉ acc := h4 k (by simp)
      have hc : ¬ (k ∈ x ∨ k ∈ acc) := by simp [hk, hkacc]
      rw [if_neg hc, ih (acc ++ [k])]
      · simp [hk]
      · intro j hj
        simp only [List.mem_append, List.mem_singleton] at hj
        rcases hj with hj | rfl
        · exact h1 j hj
        · exact hk
      · rw [List.nodup_append]
        refine ⟨h2, by simp, ?_⟩
        intro a ha b hb hab
        simp only [List.mem_singleton] at hb
        subst hb; subst hab
        exact hkacc ha
      · exact h3.2
      · intro j hj
        simp only [List.mem_append, List.mem_singleton, not_or]
        exact ⟨h4 j (by simp [hj]), fun e => h3.1 (e ▸ hj)⟩

private theorem keys_mergeDict' (a b : List (String × Val)) (hb : (b.map (·.1)).Nodup) :
    (mergeDict a b).map (·.1) =
      a.map (·.1) ++ (b.map (·.1)).filter (fun k => decide (k ∉ a.map (·.1))) := by
  rw [keys_mergeDict, fold_new _ _ [] (by simp) (by simp) hb (by simp)]
  simp

/-- **C17 (associative).**  Merging is associative -- down to the order of keys -- unless
the middle operand has a scalar or list where both other operands have a dictionary. -/
theorem C17_associative (a b c : Val) (ha : Val.UniqueKeys a) (hb : Val.UniqueKeys b)
    (hc : Val.UniqueKeys c) (hn : ¬ MergeConflict a b c) :
    mergeVal (mergeVal a b) c = mergeVal a (mergeVal b c) := by
  by_cases hcd : c.isDict = true
  · by_cases hbd : b.isDict = true
    · by_cases had : a.isDict = true
      · obtain ⟨x, rfl⟩ := isDict_iff.1 had
        obtain ⟨y, rfl⟩ := isDict_iff.1 hbd
        obtain ⟨z, rfl⟩ := isDict_iff.1 hcd
        obtain ⟨nx, hx⟩ := uniqueKeys_dict.1 ha
        obtain ⟨ny, hy⟩ := uniqueKeys_dict.1 hb
        obtain ⟨nz, hz⟩ := uniqueKeys_dict.1 hc
        simp only [mergeVal_dict]
        congr 1
        have nyz := nodup_mergeDict y z ny
        apply dict_ext
        · rw [keys_mergeDict' _ _ nz, keys_mergeDict' _ _ ny, keys_mergeDict' _ _ nyz,
            keys_mergeDict' _ _ nz, List.append_assoc, List.filter_append, List.filter_filter]
          congr 2
          apply List.filter_congr
          intro k _
          simp only [List.mem_append, List.mem_filter, decide_eq_true_eq, not_or, Bool.decide_and]
          by_cases h1 : k ∈ x.map (·.1)
          · simp [h1]
          · by_cases h2 : k ∈ y.map (·.1) <;> simp [h1, h2]
        · exact nodup_mergeDict _ _ (nodup_mergeDict _ _ nx)
        · intro k
          rw [lookup_mergeDict _ _ nz, lookup_mergeDict _ _ ny, lookup_mergeDict _ _ nyz,
            lookup_mergeDict _ _ nz]
          cases ex : x.lookup k with
          | none => cases ey : y.lookup k <;> cases ez : z.lookup k <;> simp [mergedOpt]
          | some u =>
            cases ey : y.lookup k with
            | none => cases ez : z.lookup k <;> simp [mergedOpt]
            | some v =>
              cases ez : z.lookup k with
              | none => simp [mergedOpt]
              | some w =>
                simp only [mergedOpt, Option.some.injEq]
                have := sizeOf_lookup_lt ez
                apply C17_associative u v w (hx k u ex) (hy k v ey) (hz k w ez)
                rintro ⟨p, r, s, t, h1, h2, h3⟩
                apply hn
                refine ⟨k :: p, r, s, t, ?_, ⟨?_, h2.2⟩, ?_⟩
                · rw [at_dict_cons, ex]; exact h1
                · rw [at_dict_cons, ey]; exact h2.1
                · rw [at_dict_cons, ez]; exact h3
      · have had : a.isDict = false := by simpa using had
        rw [mergeVal_leaf_left had, mergeVal_leaf_left had]
    · have hbd : b.isDict = false := by simpa using hbd
      rw [mergeVal_leaf_right hbd, mergeVal_leaf_left hbd]
      by_cases had : a.isDict = true
      · obtain ⟨x, rfl⟩ := isDict_iff.1 had
        obtain ⟨z, rfl⟩ := isDict_iff.1 hcd
        exact absurd ⟨[], x, b, z, rfl, ⟨rfl, hbd⟩, rfl⟩ hn
      · have had : a.isDict = false := by simpa using had
        rw [mergeVal_leaf_left had]
  · have hcd : c.isDict = false := by simpa using hcd
    rw [mergeVal_leaf_right hcd, mergeVal_leaf_right hcd, mergeVal_leaf_right hcd]
termination_by sizeOf c

/-- **C17 (not associative).**  Without that restriction merging is not associative: the order in
which defaults, group data and node data are merged matters. -/
theorem C17_not_associative :
    ∃ a b c : List (String × Val),
      mergeDict (mergeDict a b) c ≠ mergeDict a (mergeDict b c) := by
  refine ⟨[("ospf", .dict [("area", .int 1)])], [("ospf", .bool false)],
    [("ospf", .dict [("cost", .int 5)])], ?_⟩
  simp [mergeDict, mergePair, mergeVal, setKey, List.lookup]

example : mergeDict [("bgp", .dict [("as", .int 65000), ("rr", .bool true)]), ("x", .int 1)]
      [("bgp", .dict [("as", .int 65001)])] =
    [("bgp", .dict [("as", .int 65001), ("rr", .bool true)]), ("x", .int 1)] := by
  simp [mergeDict, mergePair, mergeVal, setKey, List.lookup]

/-- Two operands that meet the hypotheses of `C17_leaves` -/
example : Val.UniqueKeys (.dict [("bgp", .dict [("as", .int 65001)])]) ∧
    Val.leafAt (.dict [("bgp", .dict [("as", .int 65001)])]) ["bgp", "as"] (.int 65001) ∧
    Untouched (.dict [("bgp", .dict [("as", .int 65001)])]) ["bgp", "rr"] := by
  refine ⟨?_, ⟨by simp [Val.at, List.lookup], rfl⟩, ?_⟩
  · simp only [uniqueKeys_dict]
    refine ⟨by simp, ?_⟩
    intro k v h
    have := mem_of_lookup h
    simp only [List.mem_singleton, Prod.mk.injEq] at this
    obtain ⟨-, rfl⟩ := this
    rw [uniqueKeys_dict]
    refine ⟨by simp, ?_⟩
    intro k v h
    have := mem_of_lookup h
    simp only [List.mem_singleton, Prod.mk.injEq] at this
    obtain ⟨-, rfl⟩ := this
    exact uniqueKeys_leaf rfl
  · rw [untouched_cons_dict]
    intro w hw
    simp [List.lookup] at hw
    subst hw
    rw [untouched_cons_dict]
    intro w hw
    simp [List.lookup] at hw

end Netlab
