import Verif.Model.Box
import Verif.Spec.Box
import Verif.Lemmas.Assoc
/-!
# Lemmas on nested settings
-/

namespace Netlab
open Spec

section dict
variable {β : Type}

theorem lookup_setKey (d : List (String × β)) (k j : String) (v : β) :
    (setKey d k v).lookup j = if j = k then some v else d.lookup j := by
  induction d with
  | nil =>
    by_cases h : j = k
    · subst h; simp [setKey]
    · simp [setKey, h, lookup_cons_ne]
  | cons x r ih =>
    obtain ⟨a, b⟩ := x
    unfold setKey
    by_cases hak : a = k
    · subst hak
      rw [if_pos (by simp)]
      by_cases h : j = a
      · subst h; simp
      · rw [if_neg h, lookup_cons_ne _ _ h, lookup_cons_ne _ _ h]
    · rw [if_neg (by simpa using hak)]
      by_cases hj : j = a
      · subst hj
        rw [lookup_cons_self, lookup_cons_self, if_neg hak]
      · rw [lookup_cons_ne _ _ hj, lookup_cons_ne _ _ hj, ih]

theorem keys_setKey (d : List (String × β)) (k : String) (v : β) :
    (setKey d k v).map (·.1) = if k ∈ d.map (·.1) then d.map (·.1) else d.map (·.1) ++ [k] := by
  induction d with
  | nil => simp [setKey]
  | cons x r ih =>
    obtain ⟨a, b⟩ := x
    unfold setKey
    by_cases hak : a = k
    · subst hak
      simp
    · have hak' : ¬ k = a := fun h => hak h.symm
      rw [if_neg (by simpa using hak)]
      simp only [List.map_cons, ih, List.mem_cons, hak', false_or]
      split <;> simp

theorem nodup_setKey {d : List (String × β)} (h : (d.map (·.1)).Nodup) (k : String) (v : β) :
    ((setKey d k v).map (·.1)).Nodup := by
  rw [keys_setKey]
  split
  · exact h
  · rename_i hk
    rw [List.nodup_append]
    refine ⟨h, by simp, ?_⟩
    intro a ha b hb hab
    simp only [List.mem_singleton] at hb
    subst hb; subst hab
    exact hk ha

theorem setKey_append (d e : List (String × β)) (k : String) (v : β)
    (h : k ∉ d.map (·.1)) : setKey (d ++ e) k v = d ++ setKey e k v := by
  induction d with
  | nil => rfl
  | cons x r ih =>
    obtain ⟨a, b⟩ := x
    simp only [List.map_cons, List.mem_cons, not_or] at h
    have hne : ¬ (a == k) = true := by simpa using fun e => h.1 e.symm
    simp only [List.cons_append, setKey, hne, ih h.2]
    simp

theorem setKey_self {d : List (String × β)} {k : String} {v : β} (h : d.lookup k = some v) :
    setKey d k v = d := by
  induction d with
  | nil => simp at h
  | cons x r ih =>
    obtain ⟨a, b⟩ := x
    unfold setKey
    by_cases hak : a = k
    · subst hak
      rw [lookup_cons_self] at h
      cases h
      simp
    · rw [if_neg (by simpa using hak)]
      rw [lookup_cons_ne _ _ (fun e => hak e.symm)] at h
      rw [ih h]

/-- Two dictionaries with the same keys in the same order and the same values are equal. -/
theorem dict_ext {d e : List (String × β)} (hk : d.map (·.1) = e.map (·.1))
    (hn : (d.map (·.1)).Nodup) (h : ∀ k, d.lookup k = e.lookup k) : d = e := by
  induction d generalizing e with
  | nil =>
    cases e with
    | nil => rfl
    | cons => simp at hk
  | cons x r ih =>
    cases e with
    | nil => simp at hk
    | cons y s =>
      obtain ⟨a, b⟩ := x
      obtain ⟨c, d⟩ := y
      simp only [List.map_cons, List.cons.injEq] at hk
      obtain ⟨rfl, hk⟩ := hk
      have h1 := h a
      rw [lookup_cons_self, lookup_cons_self] at h1
      cases h1
      simp only [List.map_cons, List.nodup_cons] at hn
      congr 1
      apply ih hk hn.2
      intro k
      by_cases hka : k = a
      · subst hka
        rw [lookup_eq_none_iff.2 hn.1, lookup_eq_none_iff.2 (hk ▸ hn.1)]
      · have := h k
        rwa [lookup_cons_ne _ _ hka, lookup_cons_ne _ _ hka] at this

theorem lookup_popKey (d : List (String × β)) (k j : String) :
    (popKey d k).lookup j = if j = k then none else d.lookup j := by
  induction d with
  | nil => simp [popKey]
  | cons x r ih =>
    obtain ⟨a, b⟩ := x
    unfold popKey at ih ⊢
    by_cases hak : a = k
    · subst hak
      rw [List.filter_cons_of_neg (by simp), ih]
      split
      · rfl
      · rename_i h
        rw [lookup_cons_ne _ _ h]
    · rw [List.filter_cons_of_pos (by simpa using hak)]
      by_cases hj : j = a
      · subst hj
        rw [lookup_cons_self, lookup_cons_self, if_neg hak]
      · rw [lookup_cons_ne _ _ hj, lookup_cons_ne _ _ hj, ih]

end dict

/-- The value under a key in the merged dictionary. -/
def mergedOpt : Option Val → Option Val → Option Val
  | x, none => x
  | none, some v => some v
  | some u, some v => some (mergeVal u v)

theorem lookup_mergeDict (a b : List (String × Val)) (hb : (b.map (·.1)).Nodup) (k : String) :
    (mergeDict a b).lookup k = mergedOpt (a.lookup k) (b.lookup k) := by
  induction b generalizing a with
  | nil => cases h : a.lookup k <;> simp [mergeDict, mergedOpt, h]
  | cons p r ih =>
    obtain ⟨j, v⟩ := p
    simp only [List.map_cons, List.nodup_cons] at hb
    rw [mergeDict, ih _ hb.2, mergePair, lookup_setKey]
    by_cases hk : k = j
    · subst hk
      rw [if_pos rfl, lookup_eq_none_iff.2 hb.1, lookup_cons_self]
      cases a.lookup k <;> rfl
    · rw [if_neg hk, lookup_cons_ne _ _ hk]

theorem keys_mergeDict (a b : List (String × Val)) :
    (mergeDict a b).map (·.1) = a.map (·.1) ++
      (b.map (·.1)).foldl (fun acc k => if k ∈ a.map (·.1) ∨ k ∈ acc then acc else acc ++ [k]) [] := by
  have gen : ∀ (b : List (String × Val)) (a0 : List String) (acc : List String)
      (a : List (String × Val)), a.map (·.1) = a0 ++ acc →
      (mergeDict a b).map (·.1) = a0 ++
        (b.map (·.1)).foldl (fun acc k => if k ∈ a0 ∨ k ∈ acc then acc else acc ++ [k]) acc := by
    intro b
    induction b with
    | nil => intro a0 acc a h; simpa [mergeDict] using h
    | cons p r ih =>
      intro a0 acc a h
      obtain ⟨j, v⟩ := p
      rw [mergeDict, List.map_cons, List.foldl_cons]
      apply ih
      rw [mergePair, keys_setKey, h]
      simp only [List.mem_append]
      split <;> simp
  exact gen b _ [] a (by simp)

theorem nodup_mergeDict (a b : List (String × Val)) (ha : (a.map (·.1)).Nodup) :
    ((mergeDict a b).map (·.1)).Nodup := by
  induction b generalizing a with
  | nil => simpa [mergeDict] using ha
  | cons p r ih =>
    obtain ⟨j, v⟩ := p
    rw [mergeDict]
    apply ih
    rw [mergePair]
    exact nodup_setKey ha _ _

theorem mem_keys_mergeDict (a b : List (String × Val)) (hb : (b.map (·.1)).Nodup) (k : String) :
    k ∈ (mergeDict a b).map (·.1) ↔ k ∈ a.map (·.1) ∨ k ∈ b.map (·.1) := by
  have key : k ∉ (mergeDict a b).map (·.1) ↔ k ∉ a.map (·.1) ∧ k ∉ b.map (·.1) := by
    rw [← lookup_eq_none_iff, lookup_mergeDict a b hb, ← lookup_eq_none_iff, ← lookup_eq_none_iff]
    cases a.lookup k <;> cases b.lookup k <;> simp [mergedOpt]
  rw [← not_or] at key
  exact Decidable.not_iff_not.1 key

theorem uniqueKeys_dict {d : List (String × Val)} : Val.UniqueKeys (.dict d) ↔
    (d.map (·.1)).Nodup ∧ ∀ k v, d.lookup k = some v → Val.UniqueKeys v := by
  constructor
  · intro h
    refine ⟨h [] d rfl, ?_⟩
    intro k v hk p e he
    exact h (k :: p) e (by simp [Val.at, hk, he])
  · rintro ⟨h1, h2⟩ p e he
    cases p with
    | nil => simp only [Val.at, Option.some.injEq, Val.dict.injEq] at he; subst he; exact h1
    | cons k p =>
      simp only [Val.at] at he
      split at he
      · rename_i w hw
        exact h2 k w hw p e he
      · simp at he

theorem uniqueKeys_leaf {v : Val} (h : v.isDict = false) : Val.UniqueKeys v := by
  intro p d hd
  cases p with
  | nil => simp only [Val.at, Option.some.injEq] at hd; subst hd; simp [Val.isDict] at h
  | cons k p => cases v <;> simp [Val.at, Val.isDict] at *

theorem mergeVal_leaf_right {a b : Val} (h : b.isDict = false) : mergeVal a b = b := by
  cases b <;> simp [mergeVal, Val.isDict] at *

theorem mergeVal_leaf_left {a b : Val} (h : a.isDict = false) : mergeVal a b = b := by
  cases b <;> cases a <;> simp [mergeVal, Val.isDict] at *

theorem mergeVal_dict (x y : List (String × Val)) :
    mergeVal (.dict x) (.dict y) = .dict (mergeDict x y) := by
  rw [mergeVal]

theorem isDict_iff {v : Val} : v.isDict = true ↔ ∃ d, v = .dict d := by
  cases v <;> simp [Val.isDict]

theorem sizeOf_lookup_lt {d : List (String × Val)} {k : String} {v : Val}
    (h : d.lookup k = some v) : sizeOf v < sizeOf (Val.dict d) := by
  have hm := mem_of_lookup h
  have h1 := List.sizeOf_lt_of_mem hm
  have h2 : sizeOf (k, v) = 1 + sizeOf k + sizeOf v := rfl
  have h3 : sizeOf (Val.dict d) = 1 + sizeOf d := by simp
  omega

theorem uniqueKeys_mergeVal (a b : Val) (ha : Val.UniqueKeys a) (hb : Val.UniqueKeys b) :
    Val.UniqueKeys (mergeVal a b) := by
  by_cases hbd : b.isDict = true
  · by_cases had : a.isDict = true
    · obtain ⟨x, rfl⟩ := isDict_iff.1 had
      obtain ⟨y, rfl⟩ := isDict_iff.1 hbd
      rw [mergeVal_dict]
      rw [uniqueKeys_dict] at ha hb ⊢
      refine ⟨nodup_mergeDict _ _ ha.1, ?_⟩
      intro k v hk
      rw [lookup_mergeDict _ _ hb.1] at hk
      cases hx : x.lookup k <;> cases hy : y.lookup k <;> rw [hx, hy] at hk <;>
        simp [mergedOpt] at hk
      · subst hk; exact hb.2 k _ hy
      · subst hk; exact ha.2 k _ hx
      · subst hk
        rename_i u w
        have := sizeOf_lookup_lt hy
        exact uniqueKeys_mergeVal u w (ha.2 k _ hx) (hb.2 k _ hy)
    · rw [mergeVal_leaf_left (by simpa using had)]
      exact hb
  · rw [mergeVal_leaf_right (by simpa using hbd)]
    exact hb
termination_by sizeOf b

end Netlab
