import Verif.Lemmas.Box
/-!
# Lemmas on settings merged from several scopes
-/

namespace Netlab
open Spec

theorem at_dict_cons (d : List (String × Val)) (k : String) (p : List String) :
    Val.at (.dict d) (k :: p) = (d.lookup k).bind (fun w => Val.at w p) := by
  simp only [Val.at]
  cases d.lookup k <;> rfl

theorem at_leaf_cons {v : Val} (h : v.isDict = false) (k : String) (p : List String) :
    Val.at v (k :: p) = none := by
  cases v <;> simp [Val.at, Val.isDict] at *

theorem untouched_cons_dict (y : List (String × Val)) (k : String) (p : List String) :
    Untouched (.dict y) (k :: p) ↔ ∀ w, y.lookup k = some w → Untouched w p := by
  constructor
  · intro h w hw q v hq hv
    have := h (k :: q) v (by simpa using hq) (by simp [at_dict_cons, hw, hv])
    exact ⟨this.1, fun e => this.2 (by rw [e])⟩
  · intro h q v hq hv
    cases q with
    | nil =>
      simp only [Val.at, Option.some.injEq] at hv
      subst hv
      exact ⟨rfl, by simp⟩
    | cons j q =>
      rw [List.cons_prefix_cons] at hq
      obtain ⟨rfl, hq⟩ := hq
      rw [at_dict_cons] at hv
      cases hw : y.lookup j with
      | none => simp [hw] at hv
      | some w =>
        rw [hw] at hv
        have := h w hw q v hq (by simpa using hv)
        exact ⟨this.1, fun e => this.2 (by simpa using e)⟩

theorem not_untouched_nil (b : Val) : ¬ Untouched b [] := by
  intro h
  exact (h [] b (List.prefix_refl _) rfl).2 rfl

theorem not_untouched_leaf {b : Val} (hb : b.isDict = false) (p : List String) :
    ¬ Untouched b p := by
  intro h
  have := (h [] b (List.nil_prefix) rfl).1
  rw [hb] at this
  exact absurd this (by simp)

/-- A scalar or list in the merged settings is exactly one set in the right
operand, or one set in the left operand that the right operand does not touch: the right
operand wins every conflict, nothing else is lost and nothing else appears. -/
theorem mergeVal_leaves (a b : Val) (ha : a.isDict = true) (hb : b.isDict = true)
    (hub : Val.UniqueKeys b) (p : List String) (w : Val) :
    Val.leafAt (mergeVal a b) p w ↔
      Val.leafAt b p w ∨ (Val.leafAt a p w ∧ Untouched b p) := by
  induction p generalizing a b with
  | nil =>
    obtain ⟨x, rfl⟩ := isDict_iff.1 ha
    obtain ⟨y, rfl⟩ := isDict_iff.1 hb
    rw [mergeVal_dict]
    constructor
    · rintro ⟨h1, h2⟩
      simp only [Val.at, Option.some.injEq] at h1
      subst h1
      simp [Val.isDict] at h2
    · rintro (⟨h1, h2⟩ | ⟨⟨h1, h2⟩, -⟩)
      · simp only [Val.at, Option.some.injEq] at h1
        subst h1
        simp [Val.isDict] at h2
      · simp only [Val.at, Option.some.injEq] at h1
        subst h1
        simp [Val.isDict] at h2
  | cons k p ih =>
    obtain ⟨x, rfl⟩ := isDict_iff.1 ha
    obtain ⟨y, rfl⟩ := isDict_iff.1 hb
    have huy := uniqueKeys_dict.1 hub
    rw [mergeVal_dict, untouched_cons_dict]
    unfold Val.leafAt
    rw [at_dict_cons, at_dict_cons, at_dict_cons, lookup_mergeDict _ _ huy.1]
    cases hx : x.lookup k with
    | none =>
      cases hy : y.lookup k <;> simp [mergedOpt]
    | some u =>
      cases hy : y.lookup k with
      | none => simp [mergedOpt]
      | some v =>
        simp only [mergedOpt, Option.bind_some, Option.some.injEq, forall_eq']
        have huv := huy.2 k v hy
        by_cases hvd : v.isDict = true
        · by_cases hud : u.isDict = true
          · exact ih u v hud hvd huv
          · have hud : u.isDict = false := by simpa using hud
            rw [mergeVal_leaf_left hud]
            constructor
            · exact fun h => Or.inl h
            · rintro (h | ⟨⟨h1, h2⟩, h3⟩)
              · exact h
              · cases p with
                | nil => exact absurd h3 (not_untouched_nil _)
                | cons j p => rw [at_leaf_cons hud] at h1; simp at h1
        · have hvd : v.isDict = false := by simpa using hvd
          rw [mergeVal_leaf_right hvd]
          constructor
          · exact fun h => Or.inl h
          · rintro (h | ⟨-, h3⟩)
            · exact h
            · exact absurd h3 (not_untouched_leaf hvd p)


/-- A value that the right operand does not touch is kept. -/
theorem at_mergeDict_left (a b : List (String × Val)) (hb : Val.UniqueKeys (.dict b))
    (p : List String) (v : Val) (h : Val.at (.dict a) p = some v) (hu : Untouched (.dict b) p) :
    Val.at (.dict (mergeDict a b)) p = some v := by
  induction p generalizing a b with
  | nil => exact absurd hu (not_untouched_nil _)
  | cons k p ih =>
    obtain ⟨n1, n2⟩ := uniqueKeys_dict.1 hb
    rw [untouched_cons_dict] at hu
    rw [at_dict_cons] at h ⊢
    rw [lookup_mergeDict _ _ n1]
    cases hx : a.lookup k with
    | none => simp [hx] at h
    | some u =>
      rw [hx] at h
      simp only [Option.bind_some] at h
      cases hy : b.lookup k with
      | none => simpa [mergedOpt] using h
      | some w =>
        have hw := hu w hy
        simp only [mergedOpt, Option.bind_some]
        have hwd : w.isDict = true := (hw [] w (List.nil_prefix) rfl).1
        obtain ⟨y, rfl⟩ := isDict_iff.1 hwd
        cases p with
        | nil => exact absurd hw (not_untouched_nil _)
        | cons j p =>
          by_cases hud : u.isDict = true
          · obtain ⟨x, rfl⟩ := isDict_iff.1 hud
            rw [mergeVal_dict]
            exact ih x y (n2 k _ hy) h hw
          · rw [at_leaf_cons (by simpa using hud)] at h
            simp at h

/-- A value in the right operand stays in the merged settings (a dictionary can get more
keys). -/
theorem at_mergeDict_right (a b : List (String × Val)) (hb : Val.UniqueKeys (.dict b))
    (p : List String) (v : Val) (h : Val.at (.dict b) p = some v) :
    ∃ v', Val.at (.dict (mergeDict a b)) p = some v' ∧ v'.isDict = v.isDict := by
  induction p generalizing a b with
  | nil =>
    simp only [Val.at, Option.some.injEq] at h
    subst h
    exact ⟨_, rfl, rfl⟩
  | cons k p ih =>
    obtain ⟨n1, n2⟩ := uniqueKeys_dict.1 hb
    rw [at_dict_cons] at h ⊢
    rw [lookup_mergeDict _ _ n1]
    cases hy : b.lookup k with
    | none => simp [hy] at h
    | some w =>
      rw [hy] at h
      simp only [Option.bind_some] at h
      cases hx : a.lookup k with
      | none => exact ⟨v, by simpa [mergedOpt] using h, rfl⟩
      | some u =>
        simp only [mergedOpt, Option.bind_some]
        by_cases hwd : w.isDict = true
        · by_cases hud : u.isDict = true
          · obtain ⟨x, rfl⟩ := isDict_iff.1 hud
            obtain ⟨y, rfl⟩ := isDict_iff.1 hwd
            rw [mergeVal_dict]
            exact ih x y (n2 k _ hy) h
          · rw [mergeVal_leaf_left (by simpa using hud)]
            exact ⟨v, h, rfl⟩
        · rw [mergeVal_leaf_right (by simpa using hwd)]
          exact ⟨v, h, rfl⟩

/-- Values in merged settings come from one of the operands. -/
theorem at_mergeDict (a b : List (String × Val)) (hb : Val.UniqueKeys (.dict b))
    (p : List String) (v : Val) (h : Val.at (.dict (mergeDict a b)) p = some v) :
    (∃ u, Val.at (.dict a) p = some u ∧ u.isDict = v.isDict) ∨
    (∃ u, Val.at (.dict b) p = some u ∧ u.isDict = v.isDict) := by
  induction p generalizing a b with
  | nil =>
    simp only [Val.at, Option.some.injEq] at h
    subst h
    exact Or.inl ⟨_, rfl, rfl⟩
  | cons k p ih =>
    obtain ⟨n1, n2⟩ := uniqueKeys_dict.1 hb
    rw [at_dict_cons] at h ⊢
    rw [at_dict_cons]
    rw [lookup_mergeDict _ _ n1] at h
    cases hx : a.lookup k with
    | none =>
      cases hy : b.lookup k with
      | none => simp [hx, hy, mergedOpt] at h
      | some w => rw [hx, hy] at h; exact Or.inr ⟨v, by simpa [mergedOpt] using h, rfl⟩
    | some u =>
      cases hy : b.lookup k with
      | none => rw [hx, hy] at h; exact Or.inl ⟨v, by simpa [mergedOpt] using h, rfl⟩
      | some w =>
        rw [hx, hy] at h
        simp only [mergedOpt, Option.bind_some] at h ⊢
        by_cases hwd : w.isDict = true
        · by_cases hud : u.isDict = true
          · obtain ⟨x, rfl⟩ := isDict_iff.1 hud
            obtain ⟨y, rfl⟩ := isDict_iff.1 hwd
            rw [mergeVal_dict] at h
            exact ih x y (n2 k _ hy) h
          · rw [mergeVal_leaf_left (by simpa using hud)] at h
            exact Or.inr ⟨v, h, rfl⟩
        · rw [mergeVal_leaf_right (by simpa using hwd)] at h
          exact Or.inr ⟨v, h, rfl⟩

theorem untouched_mergeDict (a b : List (String × Val)) (hb : Val.UniqueKeys (.dict b))
    (p : List String) (h1 : Untouched (.dict a) p) (h2 : Untouched (.dict b) p) :
    Untouched (.dict (mergeDict a b)) p := by
  intro q v hq hv
  rcases at_mergeDict a b hb q v hv with ⟨u, hu, e⟩ | ⟨u, hu, e⟩
  · have := h1 q u hq hu
    exact ⟨by rw [← e]; exact this.1, this.2⟩
  · have := h2 q u hq hu
    exact ⟨by rw [← e]; exact this.1, this.2⟩

theorem untouched_of_mergeDict (a b : List (String × Val)) (hb : Val.UniqueKeys (.dict b))
    (p : List String) (h : Untouched (.dict (mergeDict a b)) p) :
    Untouched (.dict b) p ∧ Val.at (.dict a) p = none := by
  have hub : Untouched (.dict b) p := by
    intro q v hq hv
    obtain ⟨v', h1, h2⟩ := at_mergeDict_right a b hb q v hv
    have := h q v' hq h1
    exact ⟨by rw [← h2]; exact this.1, this.2⟩
  refine ⟨hub, ?_⟩
  cases ha : Val.at (.dict a) p with
  | none => rfl
  | some v =>
    have := at_mergeDict_left a b hb p v ha hub
    exact absurd rfl (h p v (List.prefix_refl _) this).2

/-- Merging layers, the most specific one first: `more general + more specific`. -/
def mergeLayers : List (List (String × Val)) → List (String × Val)
  | [] => []
  | l :: ls => ls.foldl (fun acc g => mergeDict g acc) l

theorem uniqueKeys_mergeDict {a b : List (String × Val)} (ha : Val.UniqueKeys (.dict a))
    (hb : Val.UniqueKeys (.dict b)) : Val.UniqueKeys (.dict (mergeDict a b)) := by
  have := uniqueKeys_mergeVal (.dict a) (.dict b) ha hb
  rwa [mergeVal_dict] at this

theorem uniqueKeys_foldl (ls : List (List (String × Val))) :
    ∀ acc, Val.UniqueKeys (.dict acc) → (∀ l ∈ ls, Val.UniqueKeys (.dict l)) →
      Val.UniqueKeys (.dict (ls.foldl (fun acc g => mergeDict g acc) acc)) := by
  induction ls with
  | nil => intro acc h _; exact h
  | cons l ls ih =>
    intro acc h hl
    exact ih _ (uniqueKeys_mergeDict (hl l (by simp)) h) (fun x hx => hl x (by simp [hx]))

/-- The accumulated value is kept by all later (less specific) layers. -/
theorem foldl_keeps (ls : List (List (String × Val))) : ∀ acc p w,
    Val.UniqueKeys (.dict acc) → (∀ l ∈ ls, Val.UniqueKeys (.dict l)) →
    Val.leafAt (.dict acc) p w →
    Val.leafAt (.dict (ls.foldl (fun acc g => mergeDict g acc) acc)) p w := by
  induction ls with
  | nil => intro acc p w _ _ h; exact h
  | cons l ls ih =>
    intro acc p w hu hl h
    refine ih _ p w (uniqueKeys_mergeDict (hl l (by simp)) hu) (fun x hx => hl x (by simp [hx])) ?_
    have := (mergeVal_leaves (.dict l) (.dict acc) rfl rfl hu p w).2 (Or.inl h)
    rwa [mergeVal_dict] at this

/-- The most specific layer that says something about a path decides. -/
theorem foldl_decides (ls : List (List (String × Val))) : ∀ acc p w,
    Val.UniqueKeys (.dict acc) → (∀ l ∈ ls, Val.UniqueKeys (.dict l)) →
    Decides (acc :: ls) p w →
    Val.leafAt (.dict (ls.foldl (fun acc g => mergeDict g acc) acc)) p w := by
  induction ls with
  | nil =>
    rintro acc p w _ _ ⟨before, l, after, h1, h2, -⟩
    cases before with
    | nil =>
      simp only [List.nil_append, List.cons.injEq] at h1
      rw [h1.1]; exact h2
    | cons b before =>
      simp at h1
  | cons g ls ih =>
    rintro acc p w hu hl ⟨before, l, after, h1, h2, h3⟩
    have hug := hl g (by simp)
    cases before with
    | nil =>
      simp only [List.nil_append, List.cons.injEq] at h1
      obtain ⟨rfl, -⟩ := h1
      exact foldl_keeps (g :: ls) acc p w hu hl h2
    | cons b before =>
      simp only [List.cons_append, List.cons.injEq] at h1
      obtain ⟨rfl, h1⟩ := h1
      refine ih _ p w (uniqueKeys_mergeDict hug hu) (fun x hx => hl x (by simp [hx])) ?_
      have hacc := h3 acc (by simp)
      cases before with
      | nil =>
        simp only [List.nil_append, List.cons.injEq] at h1
        obtain ⟨rfl, rfl⟩ := h1
        refine ⟨[], _, ls, rfl, ?_, by simp⟩
        have := (mergeVal_leaves (.dict g) (.dict acc) rfl rfl hu p w).2 (Or.inr ⟨h2, hacc⟩)
        rwa [mergeVal_dict] at this
      | cons c before =>
        simp only [List.cons_append, List.cons.injEq] at h1
        obtain ⟨rfl, rfl⟩ := h1
        refine ⟨mergeDict g acc :: before, l, after, rfl, h2, ?_⟩
        intro b hb
        rcases List.mem_cons.1 hb with rfl | hb
        · exact untouched_mergeDict _ _ hu p (h3 g (by simp)) hacc
        · exact h3 b (by simp [hb])

theorem at_append (v : Val) (q r : List String) :
    Val.at v (q ++ r) = (Val.at v q).bind (fun u => Val.at u r) := by
  induction q generalizing v with
  | nil => simp [Val.at]
  | cons k q ih =>
    by_cases hv : v.isDict = true
    · obtain ⟨d, rfl⟩ := isDict_iff.1 hv
      rw [List.cons_append, at_dict_cons, at_dict_cons]
      cases d.lookup k with
      | none => rfl
      | some w => simp [ih]
    · rw [List.cons_append, at_leaf_cons (by simpa using hv), at_leaf_cons (by simpa using hv)]
      rfl

theorem at_below_leaf {v w : Val} {q p : List String} (h : Val.leafAt v q w) (hq : q <+: p)
    (hne : q ≠ p) : Val.at v p = none := by
  obtain ⟨r, rfl⟩ := hq
  rw [at_append, h.1]
  cases r with
  | nil => simp at hne
  | cons k r => simpa using at_leaf_cons h.2 k r

/-- Conversely, a value in the merged settings comes from a layer such that no more specific
layer has a value at the path. -/
theorem foldl_source (ls : List (List (String × Val))) : ∀ acc p w,
    Val.UniqueKeys (.dict acc) → (∀ l ∈ ls, Val.UniqueKeys (.dict l)) →
    Val.leafAt (.dict (ls.foldl (fun acc g => mergeDict g acc) acc)) p w →
    ∃ before l after, acc :: ls = before ++ l :: after ∧ Val.leafAt (.dict l) p w ∧
      ∀ b ∈ before, Val.at (.dict b) p = none := by
  induction ls with
  | nil => intro acc p w _ _ h; exact ⟨[], acc, [], rfl, h, by simp⟩
  | cons g ls ih =>
    intro acc p w hu hl h
    have hug := hl g (by simp)
    obtain ⟨before, l, after, h1, h2, h3⟩ :=
      ih _ p w (uniqueKeys_mergeDict hug hu) (fun x hx => hl x (by simp [hx])) h
    have none_of_untouched : ∀ b, Untouched (.dict b) p → Val.at (.dict b) p = none := by
      intro b hb
      cases hv : Val.at (.dict b) p with
      | none => rfl
      | some v => exact absurd rfl (hb p v (List.prefix_refl _) hv).2
    cases before with
    | nil =>
      simp only [List.nil_append, List.cons.injEq] at h1
      obtain ⟨rfl, rfl⟩ := h1
      have := (mergeVal_leaves (.dict g) (.dict acc) rfl rfl hu p w).1 (by rw [mergeVal_dict]; exact h2)
      rcases this with h | ⟨h, hun⟩
      · exact ⟨[], acc, g :: ls, rfl, h, by simp⟩
      · exact ⟨[acc], g, ls, rfl, h, by simpa using none_of_untouched acc hun⟩
    | cons b before =>
      simp only [List.cons_append, List.cons.injEq] at h1
      obtain ⟨rfl, rfl⟩ := h1
      refine ⟨acc :: g :: before, l, after, rfl, h2, ?_⟩
      have hmn := h3 _ (by simp : mergeDict g acc ∈ mergeDict g acc :: before)
      have hacc : Val.at (.dict acc) p = none := by
        cases hv : Val.at (.dict acc) p with
        | none => rfl
        | some v =>
          obtain ⟨v', e, -⟩ := at_mergeDict_right g acc hu p v hv
          rw [e] at hmn; cases hmn
      have hun : Untouched (.dict acc) p := by
        intro q v hq hv
        have hqp : q ≠ p := by rintro rfl; rw [hacc] at hv; cases hv
        refine ⟨?_, hqp⟩
        cases hvd : v.isDict with
        | true => rfl
        | false =>
          have hleaf := foldl_keeps _ acc q v hu hl ⟨hv, hvd⟩
          have := at_below_leaf hleaf hq hqp
          rw [h.1] at this
          cases this
      have hg : Val.at (.dict g) p = none := by
        cases hv : Val.at (.dict g) p with
        | none => rfl
        | some v =>
          rw [at_mergeDict_left g acc hu p v hv hun] at hmn
          cases hmn
      intro b hb
      simp only [List.mem_cons] at hb
      rcases hb with rfl | rfl | hb
      · exact hacc
      · exact hg
      · exact h3 b (by simp [hb])

theorem uniqueKeys_popKey {d : List (String × Val)} (h : Val.UniqueKeys (.dict d)) (k : String) :
    Val.UniqueKeys (.dict (popKey d k)) := by
  rw [uniqueKeys_dict] at h ⊢
  constructor
  · unfold popKey
    exact h.1.sublist ((List.filter_sublist).map _)
  · intro j v hj
    rw [lookup_popKey] at hj
    split at hj
    · cases hj
    · exact h.2 j v hj

theorem lookup_foldl_popKey (ks : List String) : ∀ (d : List (String × Val)) (j : String),
    (ks.foldl popKey d).lookup j = if j ∈ ks then none else d.lookup j := by
  induction ks with
  | nil => intro d j; simp
  | cons k ks ih =>
    intro d j
    rw [List.foldl_cons, ih, lookup_popKey]
    by_cases h1 : j ∈ ks
    · simp [h1]
    · by_cases h2 : j = k <;> simp [h1, h2]

theorem uniqueKeys_foldl_popKey (ks : List String) : ∀ d : List (String × Val),
    Val.UniqueKeys (.dict d) → Val.UniqueKeys (.dict (ks.foldl popKey d)) := by
  induction ks with
  | nil => intro d h; exact h
  | cons k ks ih => intro d h; exact ih _ (uniqueKeys_popKey h k)

end Netlab
