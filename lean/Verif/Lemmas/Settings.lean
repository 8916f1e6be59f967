import Verif.Model.Settings
import Verif.Lemmas.Layers
/-!
# Lemmas on settings collected from several scopes
-/

namespace Netlab
open Spec

/-! ### Paths -/

theorem at_popKey {d : List (String × Val)} {k : String} {p : List String}
    (h : p.head? ≠ some k) (hp : p ≠ []) :
    Val.at (.dict (popKey d k)) p = Val.at (.dict d) p := by
  cases p with
  | nil => exact absurd rfl hp
  | cons j p =>
    rw [at_dict_cons, at_dict_cons, lookup_popKey, if_neg]
    rintro rfl
    exact h rfl

theorem leafAt_popKey {d : List (String × Val)} {k : String} {p : List String} {w : Val}
    (h : p.head? ≠ some k) :
    Val.leafAt (.dict (popKey d k)) p w ↔ Val.leafAt (.dict d) p w := by
  by_cases hp : p = []
  · subst hp
    unfold Val.leafAt
    constructor
    · rintro ⟨h1, h2⟩
      simp only [Val.at, Option.some.injEq] at h1
      subst h1
      simp [Val.isDict] at h2
    · rintro ⟨h1, h2⟩
      simp only [Val.at, Option.some.injEq] at h1
      subst h1
      simp [Val.isDict] at h2
  · unfold Val.leafAt
    rw [at_popKey h hp]

theorem untouched_popKey {d : List (String × Val)} {k : String} {p : List String}
    (h : p.head? ≠ some k) : Untouched (.dict (popKey d k)) p ↔ Untouched (.dict d) p := by
  have key : ∀ q, q <+: p → q ≠ [] → Val.at (.dict (popKey d k)) q = Val.at (.dict d) q := by
    intro q hq hne
    apply at_popKey _ hne
    cases q with
    | nil => exact absurd rfl hne
    | cons j q =>
      cases p with
      | nil => simp at hq
      | cons i p =>
        rw [List.cons_prefix_cons] at hq
        rw [hq.1]
        simpa using h
  constructor
  · intro hu q v hq hv
    by_cases hne : q = []
    · subst hne
      simp only [Val.at, Option.some.injEq] at hv
      subst hv
      refine ⟨rfl, ?_⟩
      intro e
      subst e
      exact not_untouched_nil _ hu
    · exact hu q v hq (by rw [key q hq hne]; exact hv)
  · intro hu q v hq hv
    by_cases hne : q = []
    · subst hne
      simp only [Val.at, Option.some.injEq] at hv
      subst hv
      refine ⟨rfl, ?_⟩
      intro e
      subst e
      exact not_untouched_nil _ hu
    · exact hu q v hq (by rw [← key q hq hne]; exact hv)

/-! ### `remove_null_values` -/

/-- What is left of a value. -/
def cleanVal : Val → Option Val
  | .null => none
  | .dict d => some (.dict (removeNull d))
  | v => some v

theorem removeNull_cons (k : String) (v : Val) (r : List (String × Val)) :
    removeNull ((k, v) :: r) = match cleanVal v with
      | none => removeNull r
      | some w => (k, w) :: removeNull r := by
  cases v <;> simp [removeNull, cleanVal]

theorem keys_removeNull (d : List (String × Val)) :
    ((removeNull d).map (·.1)).Sublist (d.map (·.1)) := by
  induction d with
  | nil => simp [removeNull]
  | cons p r ih =>
    obtain ⟨k, v⟩ := p
    rw [removeNull_cons]
    cases cleanVal v with
    | none => exact ih.cons _
    | some w => exact ih.cons_cons _

theorem lookup_removeNull {d : List (String × Val)} (h : (d.map (·.1)).Nodup) (k : String) :
    (removeNull d).lookup k = (d.lookup k).bind cleanVal := by
  induction d with
  | nil => simp [removeNull]
  | cons p r ih =>
    obtain ⟨j, v⟩ := p
    simp only [List.map_cons, List.nodup_cons] at h
    rw [removeNull_cons]
    by_cases hk : k = j
    · subst hk
      cases hc : cleanVal v with
      | none =>
        simp only [List.lookup, beq_self_eq_true, Option.bind_some, hc]
        apply lookup_eq_none_iff.2
        exact fun hm => h.1 ((keys_removeNull r).subset hm)
      | some w => simp [List.lookup, hc]
    · have hb : (k == j) = false := by simpa using hk
      cases hc : cleanVal v with
      | none => simp only [List.lookup, hb]; exact ih h.2
      | some w => simp only [List.lookup, hb]; exact ih h.2

theorem at_removeNull (p : List String) : ∀ d : List (String × Val),
    Val.UniqueKeys (.dict d) →
    Val.at (.dict (removeNull d)) p = (Val.at (.dict d) p).bind cleanVal := by
  induction p with
  | nil => intro d _; simp [Val.at, cleanVal]
  | cons k p ih =>
    intro d hu
    obtain ⟨n1, n2⟩ := uniqueKeys_dict.1 hu
    rw [at_dict_cons, at_dict_cons, lookup_removeNull n1]
    cases hl : d.lookup k with
    | none => rfl
    | some v =>
      simp only [Option.bind_some]
      cases v with
      | dict s => simp only [cleanVal, Option.bind_some]; exact ih s (n2 k _ hl)
      | null =>
        cases p with
        | nil => simp [cleanVal, Val.at]
        | cons => simp [cleanVal, Val.at]
      | bool | int | str | list =>
        cases p with
        | nil => simp [cleanVal, Val.at]
        | cons => simp [cleanVal, Val.at]

theorem isDict_cleanVal {v w : Val} (h : cleanVal v = some w) : w.isDict = v.isDict := by
  cases v <;> simp [cleanVal] at h <;> subst h <;> rfl

theorem uniqueKeys_removeNull {d : List (String × Val)} (h : Val.UniqueKeys (.dict d)) :
    Val.UniqueKeys (.dict (removeNull d)) := by
  intro p e he
  rw [at_removeNull p d h] at he
  cases ha : Val.at (.dict d) p with
  | none => simp [ha] at he
  | some v =>
    rw [ha] at he
    simp only [Option.bind_some] at he
    cases v with
    | dict s =>
      simp only [cleanVal, Option.some.injEq, Val.dict.injEq] at he
      subst he
      exact (h p s ha).sublist (keys_removeNull s)
    | null => simp [cleanVal] at he
    | bool | int | str | list => simp [cleanVal] at he

theorem leafAt_removeNull {d : List (String × Val)} (hu : Val.UniqueKeys (.dict d))
    (p : List String) (w : Val) :
    Val.leafAt (.dict (removeNull d)) p w ↔ Val.leafAt (.dict d) p w ∧ w ≠ .null := by
  unfold Val.leafAt
  rw [at_removeNull p d hu]
  constructor
  · rintro ⟨h1, h2⟩
    cases ha : Val.at (.dict d) p with
    | none => simp [ha] at h1
    | some v =>
      rw [ha] at h1
      simp only [Option.bind_some] at h1
      cases v with
      | dict s =>
        simp only [cleanVal, Option.some.injEq] at h1
        subst h1
        simp [Val.isDict] at h2
      | null => simp [cleanVal] at h1
      | bool | int | str | list =>
        simp only [cleanVal, Option.some.injEq] at h1
        subst h1
        exact ⟨⟨rfl, rfl⟩, by simp⟩
  · rintro ⟨⟨h1, h2⟩, h3⟩
    rw [h1]
    refine ⟨?_, h2⟩
    cases w <;> simp [cleanVal, Val.isDict] at *

theorem untouched_removeNull {d : List (String × Val)} (hu : Val.UniqueKeys (.dict d))
    {p : List String} (h : Untouched (.dict d) p) : Untouched (.dict (removeNull d)) p := by
  intro q v hq hv
  rw [at_removeNull q d hu] at hv
  cases ha : Val.at (.dict d) q with
  | none => simp [ha] at hv
  | some u =>
    rw [ha] at hv
    have := h q u hq ha
    exact ⟨by rw [isDict_cleanVal hv]; exact this.1, this.2⟩

theorem untouched_removeNull_null {d : List (String × Val)} (hu : Val.UniqueKeys (.dict d))
    {p : List String} (h : Val.at (.dict d) p = some .null) :
    Untouched (.dict (removeNull d)) p := by
  intro q v hq hv
  rw [at_removeNull q d hu] at hv
  cases ha : Val.at (.dict d) q with
  | none => simp [ha] at hv
  | some u =>
    rw [ha] at hv
    simp only [Option.bind_some] at hv
    have hne : q ≠ p := by
      rintro rfl
      rw [h] at ha
      cases ha
      simp [cleanVal] at hv
    refine ⟨?_, hne⟩
    rw [isDict_cleanVal hv]
    obtain ⟨t, rfl⟩ := hq
    cases hud : u.isDict with
    | true => rfl
    | false =>
      rw [at_append, ha] at h
      cases t with
      | nil => simp at hne
      | cons k t => simp [at_leaf_cons hud] at h

/-! ### Device inheritance -/

theorem getDevice_setKey (devs : List (String × Device)) (n m : String) (x : Device) :
    getDevice (setKey devs n x) m = if m = n then x else getDevice devs m := by
  unfold getDevice
  rw [lookup_setKey]
  by_cases h : m = n
  · simp [h]
  · simp [h]

/-- Number of devices that have a parent -/
def orphans (devs : List (String × Device)) : Nat :=
  (devs.filter (fun p => p.2.parent.isSome)).length

theorem orphans_setKey_lt {devs : List (String × Device)} {n : String} {x : Device}
    (hp : (getDevice devs n).parent.isSome = true) (hx : x.parent = none) :
    orphans (setKey devs n x) < orphans devs := by
  unfold orphans
  induction devs with
  | nil => simp [getDevice] at hp
  | cons q r ih =>
    obtain ⟨a, b⟩ := q
    unfold setKey
    by_cases h : a = n
    · subst h
      have : b.parent.isSome = true := by simpa [getDevice, List.lookup] using hp
      simp [this, hx]
    · have hb : (a == n) = false := by simpa using h
      have hb2 : (n == a) = false := by simpa using fun e => h e.symm
      simp only [hb, Bool.false_eq_true, if_false, List.filter_cons]
      have := ih (by simpa [getDevice, List.lookup, hb2] using hp)
      split <;> simp <;> omega

theorem orphans_setKey_le (devs : List (String × Device)) (n : String) {x : Device}
    (hx : x.parent = none) : orphans (setKey devs n x) ≤ orphans devs := by
  unfold orphans
  induction devs with
  | nil => simp [setKey, hx]
  | cons q r ih =>
    obtain ⟨a, b⟩ := q
    unfold setKey
    by_cases h : a = n
    · subst h
      simp only [beq_self_eq_true, if_true, List.filter_cons, hx, Option.isSome_none,
        Bool.false_eq_true, if_false]
      split
      · simp
      · exact Nat.le_refl _
    · have hb : (a == n) = false := by simpa using h
      simp only [hb, Bool.false_eq_true, if_false, List.filter_cons]
      split <;> simp <;> omega

theorem childDevice_total (fuel : Nat) : ∀ n devs, orphans devs < fuel →
    ∃ out, childDevice fuel n devs = some out ∧ orphans out ≤ orphans devs := by
  induction fuel with
  | zero => intro n devs h; omega
  | succ f ih =>
    intro n devs h
    unfold childDevice
    cases hp : (getDevice devs n).parent with
    | none => exact ⟨devs, rfl, Nat.le_refl _⟩
    | some p =>
      have hlt := orphans_setKey_lt (devs := devs) (n := n)
        (x := ⟨none, (getDevice devs n).data⟩) (by simp [hp]) rfl
      obtain ⟨o, h1, h2⟩ := ih p (setKey devs n ⟨none, (getDevice devs n).data⟩) (by omega)
      simp only [h1]
      exact ⟨_, rfl, by have := orphans_setKey_le o n (x := ⟨none, removeNull (mergeDict
          (popKey (getDevice o p).data "template") (getDevice o n).data)⟩) rfl; omega⟩

theorem inheritLoop_total (fuel : Nat) (ns : List String) : ∀ devs, orphans devs < fuel →
    ∃ out, inheritLoop fuel ns devs = some out := by
  induction ns with
  | nil => intro devs _; exact ⟨devs, rfl⟩
  | cons n r ih =>
    intro devs h
    obtain ⟨o, h1, h2⟩ := childDevice_total fuel n devs h
    unfold inheritLoop
    rw [h1]
    exact ih o (by omega)

/-- A device, its parent, the parent of its parent and so on -/
inductive Spec.Lineage (devs : List (String × Device)) : String → List String → Prop
  | root {n} : (getDevice devs n).parent = none → Lineage devs n [n]
  | child {n p l} : (getDevice devs n).parent = some p → Lineage devs p l → Lineage devs n (n :: l)

theorem lineage_unique {devs n l} (h : Lineage devs n l) : ∀ {l'}, Lineage devs n l' → l' = l := by
  induction h with
  | root h =>
    intro l' h'
    cases h' with
    | root => rfl
    | child h2 _ => rw [h] at h2; cases h2
  | child h _ ih =>
    intro l' h'
    cases h' with
    | root h2 => rw [h] at h2; cases h2
    | child h2 h3 =>
      rw [h] at h2
      cases h2
      rw [ih h3]

theorem lineage_mem {devs n l} (h : Lineage devs n l) {m : String} (hm : m ∈ l) :
    ∃ l', Lineage devs m l' ∧ l'.length ≤ l.length := by
  induction h with
  | root h =>
    simp only [List.mem_singleton] at hm
    subst hm
    exact ⟨_, .root h, Nat.le_refl _⟩
  | @child n p l h h2 ih =>
    rcases List.mem_cons.1 hm with rfl | hm
    · exact ⟨_, .child h h2, Nat.le_refl _⟩
    · obtain ⟨l', h3, h4⟩ := ih hm
      exact ⟨l', h3, by simp; omega⟩

theorem lineage_not_mem {devs n p l} (h : (getDevice devs n).parent = some p)
    (hl : Lineage devs p l) : n ∉ l := by
  intro hm
  obtain ⟨l', h1, h2⟩ := lineage_mem hl hm
  have := lineage_unique (Lineage.child h hl) h1
  subst this
  simp only [List.length_cons] at h2
  omega

/-- Settings of a device computed from its lineage -/
def lineageData (devs : List (String × Device)) : List String → List (String × Val)
  | [] => []
  | [n] => (getDevice devs n).data
  | n :: p :: l => removeNull (mergeDict (popKey (lineageData devs (p :: l)) "template")
      (getDevice devs n).data)

theorem lineage_cons {devs n l} (h : Lineage devs n l) : ∃ r, l = n :: r := by
  cases h with
  | root => exact ⟨_, rfl⟩
  | child => exact ⟨_, rfl⟩

/-- The device has not been processed yet, or its settings are final -/
def DevInv (devs0 devs : List (String × Device)) (m : String) : Prop :=
  getDevice devs m = getDevice devs0 m ∨
  ∃ l, Lineage devs0 m l ∧ getDevice devs m = ⟨none, lineageData devs0 l⟩

/-- The settings of the device are final -/
def DevFinal (devs0 devs : List (String × Device)) (m : String) : Prop :=
  ∃ l, Lineage devs0 m l ∧ getDevice devs m = ⟨none, lineageData devs0 l⟩

theorem childDevice_inv {devs0 : List (String × Device)} {n l} (h : Lineage devs0 n l) :
    ∀ fuel devs out, (∀ m ∈ l, DevInv devs0 devs m) → childDevice fuel n devs = some out →
      getDevice out n = ⟨none, lineageData devs0 l⟩ ∧
      (∀ m, getDevice out m = getDevice devs m ∨ DevFinal devs0 out m) ∧
      (∀ m, m ∉ l → getDevice out m = getDevice devs m) := by
  induction h with
  | @root n h =>
    intro fuel devs out hi hc
    cases fuel with
    | zero => simp [childDevice] at hc
    | succ f =>
      unfold childDevice at hc
      have hd : getDevice devs n = ⟨none, (getDevice devs0 n).data⟩ := by
        rcases hi n (by simp) with h1 | ⟨l, h1, h2⟩
        · rw [h1, ← h]
        · have := lineage_unique (.root h) h1
          subst this
          exact h2
      rw [hd] at hc
      simp only [Option.some.injEq] at hc
      subst hc
      exact ⟨hd, fun m => Or.inl rfl, fun m _ => rfl⟩
  | @child n p l h hl ih =>
    intro fuel devs out hi hc
    have hnl := lineage_not_mem h hl
    obtain ⟨r, hr⟩ := lineage_cons hl
    cases fuel with
    | zero => simp [childDevice] at hc
    | succ f =>
      unfold childDevice at hc
      rcases hi n (by simp) with h1 | ⟨l', h1, h2⟩
      · rw [h1, h] at hc
        simp only at hc
        cases hc2 : childDevice f p (setKey devs n ⟨none, (getDevice devs0 n).data⟩) with
        | none => rw [hc2] at hc; simp at hc
        | some o =>
          rw [hc2] at hc
          simp only [Option.some.injEq] at hc
          have hne : ∀ m ∈ l, m ≠ n := by
            rintro m hm rfl
            exact hnl hm
          obtain ⟨i1, i2, i3⟩ := ih f _ o (by
            intro m hm
            unfold DevInv
            rw [getDevice_setKey, if_neg (hne m hm)]
            exact hi m (by simp [hm])) hc2
          have hn : getDevice o n = ⟨none, (getDevice devs0 n).data⟩ := by
            rw [i3 n hnl, getDevice_setKey, if_pos rfl]
          have hfin : getDevice out n = ⟨none, lineageData devs0 (n :: l)⟩ := by
            rw [← hc, getDevice_setKey, if_pos rfl, i1, hn, hr, lineageData]
          have hsame : ∀ m, m ≠ n → getDevice out m = getDevice o m := by
            intro m hm
            rw [← hc, getDevice_setKey, if_neg hm]
          refine ⟨hfin, ?_, ?_⟩
          · intro m
            by_cases hm : m = n
            · subst hm
              exact Or.inr ⟨_, .child h hl, hfin⟩
            · rcases i2 m with e2 | e2
              · left
                rw [hsame m hm, e2, getDevice_setKey, if_neg hm]
              · right
                unfold DevFinal at e2 ⊢
                rw [hsame m hm]
                exact e2
          · intro m hm
            simp only [List.mem_cons, not_or] at hm
            rw [hsame m hm.1, i3 m hm.2, getDevice_setKey, if_neg hm.1]
      · rw [h2] at hc
        simp only [Option.some.injEq] at hc
        subst hc
        have := lineage_unique (.child h hl) h1
        subst this
        exact ⟨h2, fun m => Or.inl rfl, fun m _ => rfl⟩

theorem inheritLoop_inv {devs0 : List (String × Device)} (fuel : Nat) (ns : List String) :
    ∀ devs out, (∀ n ∈ ns, ∃ l, Lineage devs0 n l) → (∀ m, DevInv devs0 devs m) →
      inheritLoop fuel ns devs = some out →
      (∀ m, DevInv devs0 out m) ∧
      (∀ n l, Lineage devs0 n l →
        (n ∈ ns ∨ getDevice devs n = ⟨none, lineageData devs0 l⟩) →
        getDevice out n = ⟨none, lineageData devs0 l⟩) := by
  induction ns with
  | nil =>
    intro devs out _ hi ho
    simp only [inheritLoop, Option.some.injEq] at ho
    subst ho
    exact ⟨hi, fun n l _ h => h.resolve_left (by simp)⟩
  | cons x r ih =>
    intro devs out hl hi ho
    unfold inheritLoop at ho
    cases hc : childDevice fuel x devs with
    | none => rw [hc] at ho; simp at ho
    | some o =>
      rw [hc] at ho
      simp only at ho
      obtain ⟨lx, hlx⟩ := hl x (by simp)
      obtain ⟨c1, c2, -⟩ := childDevice_inv hlx fuel devs o (fun m _ => hi m) hc
      have hio : ∀ m, DevInv devs0 o m := by
        intro m
        rcases c2 m with e | e
        · unfold DevInv
          rw [e]
          exact hi m
        · exact Or.inr e
      obtain ⟨i1, i2⟩ := ih o out (fun n hn => hl n (by simp [hn])) hio ho
      refine ⟨i1, ?_⟩
      intro n l hnl hor
      apply i2 n l hnl
      by_cases hx : n = x
      · subst hx
        right
        rw [c1, lineage_unique hnl hlx]
      · rcases hor with h | h
        · rcases List.mem_cons.1 h with h | h
          · exact absurd h hx
          · exact Or.inl h
        · right
          rcases c2 n with e | ⟨l', e1, e2⟩
          · rw [e, h]
          · have := lineage_unique hnl e1
            subst this
            exact e2

end Netlab
