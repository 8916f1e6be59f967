import Verif.Spec.YamlKeys
/-!
# C160: duplicate keys in YAML files are rejected
-/

namespace Netlab
open Spec

theorem yDupKey_none (l : List String) : ∀ seen : List String, seen.Nodup → (yDupKey seen l = none ↔ (seen ++ l).Nodup) := by
  induction l with
  | nil => intro seen h; simpa [yDupKey] using h
  | cons k r ih =>
    intro seen h
    by_cases hk : k ∈ seen
    · simp only [yDupKey, List.contains_iff_mem, hk, if_true]
      refine ⟨fun h => (by cases h), fun hn => ?_⟩
      have := (List.nodup_append.mp hn).2.2 k hk k List.mem_cons_self
      exact absurd rfl this
    · simp only [yDupKey, List.contains_iff_mem, hk, if_false]
      have h2 : (seen ++ [k]).Nodup := by
        rw [List.nodup_append]
        refine ⟨h, by simp, ?_⟩
        intro a ha b hb hab
        rw [List.mem_singleton] at hb
        subst hb; subst hab
        exact hk ha
      rw [ih _ h2, List.append_assoc]
      rfl

theorem yDupKey_some (l : List String) : ∀ (seen : List String) (k : String), yDupKey seen l = some k → UsedTwice k (seen ++ l) := by
  induction l with
  | nil => intro seen k h; cases h
  | cons x r ih =>
    intro seen k h
    by_cases hk : x ∈ seen
    · simp only [yDupKey, List.contains_iff_mem, hk, if_true, Option.some.injEq] at h
      subst h
      obtain ⟨a, b, rfl⟩ := List.append_of_mem hk
      exact ⟨a, b, r, by simp⟩
    · simp only [yDupKey, List.contains_iff_mem, hk, if_false] at h
      have := ih _ _ h
      rwa [List.append_assoc] at this

/-- All mappings in the node have unique keys. -/
def YGood (n : YNode) : Prop := ∀ l, YContains n (.map l) → (l.map Prod.fst).Nodup

mutual
theorem yDup_none : ∀ n : YNode, yDup n = none ↔ YGood n
  | .scalar s => by
    simp only [yDup, true_iff]
    intro l h
    cases h
  | .seq l => by
    simp only [yDup]
    rw [yDupSeq_none l]
    constructor
    · intro h m hm
      cases hm with
      | seq _ n _ hn hc => exact h n hn m hc
    · exact fun h n hn m hc => h m (YContains.seq l n _ hn hc)
  | .map l => by
    have hk := yDupKey_none (l.map Prod.fst) [] List.nodup_nil
    rw [List.nil_append] at hk
    have hm := yDupMap_none l
    simp only [yDup]
    cases hd : yDupKey [] (l.map Prod.fst) with
    | some k =>
      refine ⟨fun h => (by cases h), fun h => ?_⟩
      have := hk.mpr (h l (YContains.self _))
      rw [hd] at this
      cases this
    | none =>
      simp only
      rw [hm]
      constructor
      · intro h m hc
        cases hc with
        | self => exact hk.mp hd
        | map _ k n _ hn hc => exact h k n hn m hc
      · exact fun h k n hn m hc => h m (YContains.map l k n _ hn hc)
theorem yDupSeq_none : ∀ l : List YNode, yDupSeq l = none ↔ ∀ n ∈ l, YGood n
  | [] => by simp [yDupSeq]
  | n :: r => by
    have h1 := yDup_none n
    have h2 := yDupSeq_none r
    simp only [yDupSeq, List.forall_mem_cons]
    rw [← h1, ← h2]
    cases yDup n <;> simp
theorem yDupMap_none : ∀ l : List (String × YNode), yDupMap l = none ↔ ∀ k n, (k, n) ∈ l → YGood n
  | [] => by simp [yDupMap]
  | (k, n) :: r => by
    have h1 := yDup_none n
    have h2 := yDupMap_none r
    have h3 : (∀ k' n', (k', n') ∈ (k, n) :: r → YGood n') ↔ YGood n ∧ ∀ k n, (k, n) ∈ r → YGood n := by
      constructor
      · exact fun h => ⟨h k n List.mem_cons_self, fun k' n' hn => h k' n' (List.mem_cons_of_mem _ hn)⟩
      · rintro ⟨ha, hb⟩ k' n' hn
        rcases List.mem_cons.mp hn with h | h
        · cases h; exact ha
        · exact hb k' n' h
    rw [h3, ← h1, ← h2]
    simp only [yDupMap]
    cases yDup n <;> simp
end

mutual
theorem yDup_some : ∀ (n : YNode) (k : String), yDup n = some k → ∃ l, YContains n (.map l) ∧ UsedTwice k (l.map Prod.fst)
  | .scalar s, k, h => by simp [yDup] at h
  | .seq l, k, h => by
    simp only [yDup] at h
    obtain ⟨n, hn, m, hc, hu⟩ := yDupSeq_some l k h
    exact ⟨m, YContains.seq l n _ hn hc, hu⟩
  | .map l, k, h => by
    have hm := yDupMap_some l k
    simp only [yDup] at h
    cases hd : yDupKey [] (l.map Prod.fst) with
    | some x =>
      rw [hd] at h
      cases h
      exact ⟨l, YContains.self _, by simpa using yDupKey_some _ _ _ hd⟩
    | none =>
      rw [hd] at h
      obtain ⟨x, n, hn, m, hc, hu⟩ := hm h
      exact ⟨m, YContains.map l x n _ hn hc, hu⟩
theorem yDupSeq_some : ∀ (l : List YNode) (k : String), yDupSeq l = some k →
    ∃ n ∈ l, ∃ m, YContains n (.map m) ∧ UsedTwice k (m.map Prod.fst)
  | [], k, h => by simp [yDupSeq] at h
  | n :: r, k, h => by
    have h1 := yDup_some n k
    have h2 := yDupSeq_some r k
    simp only [yDupSeq] at h
    cases hd : yDup n with
    | some x =>
      rw [hd] at h
      obtain ⟨m, hm⟩ := h1 (hd.trans h)
      exact ⟨n, List.mem_cons_self, m, hm⟩
    | none =>
      rw [hd] at h
      obtain ⟨x, hx, m, hm⟩ := h2 h
      exact ⟨x, List.mem_cons_of_mem _ hx, m, hm⟩
theorem yDupMap_some : ∀ (l : List (String × YNode)) (k : String), yDupMap l = some k →
    ∃ x n, (x, n) ∈ l ∧ ∃ m, YContains n (.map m) ∧ UsedTwice k (m.map Prod.fst)
  | [], k, h => by simp [yDupMap] at h
  | (y, n) :: r, k, h => by
    have h1 := yDup_some n k
    have h2 := yDupMap_some r k
    simp only [yDupMap] at h
    cases hd : yDup n with
    | some x =>
      rw [hd] at h
      obtain ⟨m, hm⟩ := h1 (hd.trans h)
      exact ⟨y, n, List.mem_cons_self, m, hm⟩
    | none =>
      rw [hd] at h
      obtain ⟨x, z, hx, m, hm⟩ := h2 h
      exact ⟨x, z, List.mem_cons_of_mem _ hx, m, hm⟩
end

/-- C160: a YAML document is accepted if and only if no mapping in it, at any depth, uses the same key twice. -/
theorem C160_accepted (n : YNode) : yDup n = none ↔ ∀ l, YContains n (.map l) → (l.map Prod.fst).Nodup := yDup_none n

/-- C160: the key in the error message is used at least twice in a mapping of the document. -/
theorem C160_reported (n : YNode) (k : String) (h : yDup n = some k) :
    ∃ l, YContains n (.map l) ∧ UsedTwice k (l.map Prod.fst) := yDup_some n k h

theorem yDict_append (l : List (String × YNode)) : ∀ d : List (String × YNode), ((d ++ l).map Prod.fst).Nodup →
    l.foldl (fun d x => yPut d x.1 x.2) d = d ++ l := by
  induction l with
  | nil => intro d _; simp
  | cons x r ih =>
    intro d h
    have hx : d.any (fun y => y.1 == x.1) = false := by
      rw [List.any_eq_false]
      intro y hy he
      rw [List.map_append, List.nodup_append] at h
      exact h.2.2 y.1 (List.mem_map_of_mem hy) x.1 (by simp) (by simpa using he)
    have hp : yPut d x.1 x.2 = d ++ [x] := by simp [yPut, hx]
    simp only [List.foldl_cons, hp]
    rw [ih (d ++ [x]) (by simpa using h)]
    simp

/-- C160: nothing is lost from an accepted document: every mapping becomes a dictionary with the same keys and values in the
same order. -/
theorem C160_complete (n : YNode) (h : yDup n = none) (l : List (String × YNode)) (hl : YContains n (.map l)) : yDict l = l := by
  have := yDict_append l [] (by simpa using (yDup_none n).mp h l hl)
  simpa [yDict] using this

/-- Without the check a value would be lost. -/
example : (yDict [("nodes", .scalar "a"), ("nodes", .scalar "b")]).length = 1 := by decide +kernel

/-- Non-vacuity: an accepted document with the same key in different mappings -/
example : yDup (.map [("nodes", .map [("a", .scalar "1"), ("b", .scalar "2")]), ("links", .seq [.map [("a", .scalar "")]])]) = none := by
  decide +kernel

/-- Non-vacuity: a duplicate key deep in the document -/
example : yDup (.map [("nodes", .scalar ""), ("links", .seq [.map [("a", .scalar ""), ("b", .scalar ""), ("a", .scalar "")]])]) = some "a" := by
  decide +kernel

end Netlab
