import Verif.Spec.Components
import Verif.Lemmas.Assoc
import Mathlib.Data.List.Forall2

namespace Netlab

open Netlab.Spec

variable {α : Type}

/-- What holds for every part of the expansion. -/
structure Always (t t' : CTopo α) : Prop where
  errors : t.errors ≤ t'.errors
  comps : t'.comps = t.comps
  nodup : (t.nodes.map Prod.fst).Nodup → (t'.nodes.map Prod.fst).Nodup
  gnodup : (t.groups.map Prod.fst).Nodup → (t'.groups.map Prod.fst).Nodup
  index : (t.links.map CLink.index).Pairwise (· < ·) → (t'.links.map CLink.index).Pairwise (· < ·)
  max : t'.maxNodes = t.maxNodes
  limit : t.nodes.length ≤ t.maxNodes → t'.nodes.length ≤ t.maxNodes

theorem Always.refl (t : CTopo α) : Always t t := ⟨Nat.le_refl _, rfl, id, id, id, rfl, id⟩

theorem Always.trans {a b c : CTopo α} (h₁ : Always a b) (h₂ : Always b c) : Always a c :=
  ⟨Nat.le_trans h₁.errors h₂.errors, h₂.comps.trans h₁.comps, fun h => h₂.nodup (h₁.nodup h),
   fun h => h₂.gnodup (h₁.gnodup h), fun h => h₂.index (h₁.index h), h₂.max.trans h₁.max,
   fun h => h₁.max ▸ h₂.limit (h₁.max ▸ h₁.limit h)⟩

theorem always_err (t : CTopo α) : Always t t.err := ⟨Nat.le_succ _, rfl, id, id, id, rfl, id⟩

theorem always_checkId (name : String) (t : CTopo α) : Always t (checkId name t) := by
  unfold checkId
  split
  · exact .refl t
  · exact always_err t

theorem nodup_snoc {β : Type} {l : List (String × β)} {k : String} {v : β} (hn : (l.map Prod.fst).Nodup)
    (hk : (l.lookup k).isSome ≠ true) : ((l ++ [(k, v)]).map Prod.fst).Nodup := by
  rw [List.map_append, List.nodup_append]
  refine ⟨hn, by simp, ?_⟩
  intro a ha b hb
  simp only [List.map_cons, List.map_nil, List.mem_cons, List.not_mem_nil, or_false] at hb
  rintro rfl
  have : l.lookup k = none := Option.not_isSome_iff_eq_none.mp hk
  rw [lookup_eq_none_iff] at this
  rw [hb] at ha
  exact this ha

theorem always_add {name : String} {d : CNode α} {t t' : CTopo α} (hk : (t.nodes.lookup name).isSome ≠ true)
    (h : addIncluded name d t = .ok t') : Always t t' ∧ t'.nodes = t.nodes ++ [(name, d)] ∧ t'.links = t.links ∧
      t'.groups = t.groups ∧ t'.errors = t.errors := by
  unfold addIncluded at h
  split at h
  · simp at h
  · rename_i hm
    simp only [Except.ok.injEq] at h
    subst h
    refine ⟨⟨Nat.le_refl _, rfl, fun hn => nodup_snoc hn hk, id, id, rfl, fun _ => ?_⟩, rfl, rfl, rfl, rfl⟩
    simpa using hm

theorem always_incLinks (n : String) (ls : List (CLink α)) (t : CTopo α) :
    Always t (incLinks n ls t) ∧ (incLinks n ls t).nodes = t.nodes ∧ (incLinks n ls t).groups = t.groups ∧
      (incLinks n ls t).errors = t.errors ∧
      ∃ new, (incLinks n ls t).links = t.links ++ new ∧ List.Forall₂ (LinkCopy n) ls new := by
  induction ls generalizing t with
  | nil => exact ⟨.refl t, rfl, rfl, rfl, [], by simp [incLinks], .nil⟩
  | cons l rest ih =>
    simp only [incLinks]
    obtain ⟨h1, h2, h3, h4, new, h5, h6⟩ := ih { t with links := t.links ++ [incLink n l (nextLinkIndex t)] }
    have h0 : Always t { t with links := t.links ++ [incLink n l (nextLinkIndex t)] } := by
      refine ⟨Nat.le_refl _, rfl, id, id, ?_, rfl, id⟩
      intro hs
      simp only [List.map_append, List.map_cons, List.map_nil]
      rw [List.pairwise_append]
      refine ⟨hs, by simp, ?_⟩
      intro a ha b hb
      simp only [List.mem_cons, List.not_mem_nil, or_false] at hb
      subst hb
      obtain ⟨x, hx, rfl⟩ := List.mem_map.mp ha
      simp only [incLink, nextLinkIndex]
      cases hl : t.links.getLast? with
      | none =>
        rw [List.getLast?_eq_none_iff] at hl
        rw [hl] at hx
        exact absurd hx (by simp)
      | some y =>
        obtain ⟨pre, hpre⟩ := List.getLast?_eq_some_iff.mp hl
        rw [hpre] at hx hs
        simp only
        rcases List.mem_append.mp hx with hx | hx
        · rw [List.map_append, List.pairwise_append] at hs
          have := hs.2.2 x.index (List.mem_map_of_mem hx) y.index (by simp)
          omega
        · simp only [List.mem_cons, List.not_mem_nil, or_false] at hx
          subst hx
          omega
    refine ⟨h0.trans h1, h2, h3, h4, incLink n l (nextLinkIndex t) :: new, ?_, ?_⟩
    · rw [h5]
      simp
    · exact .cons ⟨rfl, rfl, rfl⟩ h6

theorem always_incGroup (n : String) (d : CNode α) (c : Comp α) (t : CTopo α) :
    Always t (incGroup n d c t) ∧ (incGroup n d c t).nodes = t.nodes ∧ (incGroup n d c t).links = t.links ∧
      ((incGroup n d c t).errors = t.errors →
        (incGroup n d c t).groups = t.groups ++ [(incGroupName n, ⟨incMembers n c, [c.data, d.data]⟩)]) := by
  unfold incGroup
  split
  · refine ⟨always_err t, rfl, rfl, ?_⟩
    intro h
    simp only [CTopo.err] at h
    omega
  · rename_i hk
    exact ⟨⟨Nat.le_refl _, rfl, id, fun hn => nodup_snoc hn hk, id, rfl, id⟩, rfl, rfl, fun _ => rfl⟩

/-! ### What is added by an expansion without errors -/

/-- A node created in the instance `n` of the component `c` or within it. -/
def NodeFrom (comps : List (String × Comp α)) (n c : String) (x : String × CNode α) : Prop :=
  ∃ p cp comp m d, Within comps n c p cp ∧ comps.lookup cp = some comp ∧ (m, d) ∈ comp.nodes ∧ d.incl = none ∧
    x = (incName p m, d)

/-- The same for a list of component nodes. -/
def NodeIn (comps : List (String × Comp α)) (n : String) (l : List (String × CNode α)) (x : String × CNode α) : Prop :=
  ∃ m d, (m, d) ∈ l ∧ ((d.incl = none ∧ x = (incName n m, d)) ∨ ∃ c', d.incl = some c' ∧ NodeFrom comps (incName n m) c' x)

/-- Instances within a list of component nodes. -/
def InstIn (comps : List (String × Comp α)) (n : String) (l : List (String × CNode α)) (i : String × String) : Prop :=
  ∃ m d c', (m, d) ∈ l ∧ d.incl = some c' ∧ Within comps (incName n m) c' i.1 i.2

theorem linksOf_append {comps : List (String × Comp α)} {is js : List (String × String)} {a b : List (CLink α)}
    (h₁ : LinksOf comps is a) (h₂ : LinksOf comps js b) : LinksOf comps (is ++ js) (a ++ b) := by
  induction h₁ with
  | nil => exact h₂
  | cons p c comp is new rest hc hf _ ih =>
    rw [List.append_assoc]
    exact .cons p c comp _ new _ hc hf ih

/-- Groups of the instances. -/
def GroupsOf (comps : List (String × Comp α)) (is : List (String × String)) (gs : List (String × CGroup α)) : Prop :=
  List.Forall₂ (fun i g => g.1 = incGroupName i.1 ∧ ∃ comp, comps.lookup i.2 = some comp ∧ g.2.members = incMembers i.1 comp) is gs

/-- The effect of an expansion without errors. -/
structure Adds (t t' : CTopo α) (ns : List (String × CNode α)) (is : List (String × String)) : Prop where
  nodes : t'.nodes = t.nodes ++ ns
  links : ∃ new, t'.links = t.links ++ new ∧ LinksOf t.comps is new
  groups : ∃ new, t'.groups = t.groups ++ new ∧ GroupsOf t.comps is new

theorem Adds.refl (t : CTopo α) : Adds t t [] [] :=
  ⟨by simp, ⟨[], by simp, .nil⟩, ⟨[], by simp, .nil⟩⟩

theorem Adds.trans {a b c : CTopo α} {ns ms : List (String × CNode α)} {is js : List (String × String)}
    (hab : b.comps = a.comps) (h₁ : Adds a b ns is) (h₂ : Adds b c ms js) : Adds a c (ns ++ ms) (is ++ js) := by
  obtain ⟨l1, hl1, hk1⟩ := h₁.links
  obtain ⟨l2, hl2, hk2⟩ := h₂.links
  obtain ⟨g1, hg1, hj1⟩ := h₁.groups
  obtain ⟨g2, hg2, hj2⟩ := h₂.groups
  rw [hab] at hk2 hj2
  refine ⟨by rw [h₂.nodes, h₁.nodes, List.append_assoc], ⟨l1 ++ l2, by rw [hl2, hl1, List.append_assoc], linksOf_append hk1 hk2⟩,
    ⟨g1 ++ g2, by rw [hg2, hg1, List.append_assoc], List.rel_append hj1 hj2⟩⟩

/-- The claim about `expand_include`. -/
def ExpandOk (expand : String → String → CNode α → CTopo α → Except CompAbort (CTopo α)) : Prop :=
  ∀ n c d t t', (t.comps.lookup c).isSome = true → expand n c d t = .ok t' →
    Always t t' ∧ (t'.errors = t.errors → ∃ ns is, Adds t t' ns is ∧ (∀ x, x ∈ ns ↔ NodeFrom t.comps n c x) ∧
      ∀ i, i ∈ is ↔ Within t.comps n c i.1 i.2)

theorem checkId_ok (name : String) (t : CTopo α) (h : (checkId name t).errors = t.errors) : checkId name t = t := by
  unfold checkId at h ⊢
  split
  · rfl
  · rename_i hn
    rw [if_neg hn] at h
    simp only [CTopo.err] at h
    omega

theorem incNode_ok {expand : String → String → CNode α → CTopo α → Except CompAbort (CTopo α)} (he : ExpandOk expand)
    (n m : String) (d : CNode α) (t t' : CTopo α) (h : incNode expand n m d t = .ok t') :
    Always t t' ∧ (t'.errors = t.errors → ∃ ns is, Adds t t' ns is ∧ (∀ x, x ∈ ns ↔ NodeIn t.comps n [(m, d)] x) ∧
      ∀ i, i ∈ is ↔ InstIn t.comps n [(m, d)] i) := by
  unfold incNode at h
  by_cases hk : (t.nodes.lookup (incName n m)).isSome = true
  · rw [if_pos hk] at h
    simp only [Except.ok.injEq] at h
    subst h
    refine ⟨always_err t, ?_⟩
    intro h
    simp only [CTopo.err] at h
    omega
  · rw [if_neg hk] at h
    cases hi : d.incl with
    | none =>
      simp only [hi] at h
      obtain ⟨h1, h2, h3, h4, -⟩ := always_add hk h
      refine ⟨h1, fun _ => ⟨[(incName n m, d)], [], ⟨h2, ⟨[], by rw [h3]; simp, .nil⟩, ⟨[], by rw [h4]; simp, .nil⟩⟩, ?_, ?_⟩⟩
      · intro x
        unfold NodeIn
        constructor
        · intro hx
          exact ⟨m, d, by simp, .inl ⟨hi, by simpa using hx⟩⟩
        · rintro ⟨m', d', hm, hx⟩
          simp only [List.mem_cons, List.not_mem_nil, or_false, Prod.mk.injEq] at hm
          obtain ⟨rfl, rfl⟩ := hm
          rcases hx with hx | ⟨c', hc', -⟩
          · simp [hx.2]
          · rw [hi] at hc'
            exact absurd hc' (by simp)
      · intro i
        unfold InstIn
        constructor
        · intro hx
          exact absurd hx (by simp)
        · rintro ⟨m', d', c', hm, hc', -⟩
          simp only [List.mem_cons, List.not_mem_nil, or_false, Prod.mk.injEq] at hm
          obtain ⟨rfl, rfl⟩ := hm
          rw [hi] at hc'
          exact absurd hc' (by simp)
    | some c =>
      simp only [hi] at h
      by_cases hc : (t.comps.lookup c).isSome = true
      · rw [if_pos hc] at h
        obtain ⟨h1, h2⟩ := he _ _ _ _ _ hc h
        refine ⟨h1, fun hz => ?_⟩
        obtain ⟨ns, is, ha, hn, hs⟩ := h2 hz
        refine ⟨ns, is, ha, ?_, ?_⟩
        · intro x
          rw [hn]
          unfold NodeIn
          constructor
          · intro hx
            exact ⟨m, d, by simp, .inr ⟨c, hi, hx⟩⟩
          · rintro ⟨m', d', hm, hx⟩
            simp only [List.mem_cons, List.not_mem_nil, or_false, Prod.mk.injEq] at hm
            obtain ⟨rfl, rfl⟩ := hm
            rcases hx with hx | ⟨c', hc', hx⟩
            · rw [hi] at hx
              exact absurd hx.1 (by simp)
            · rw [hi] at hc'
              obtain rfl := Option.some.inj hc'
              exact hx
        · intro i
          rw [hs]
          unfold InstIn
          constructor
          · intro hx
            exact ⟨m, d, c, by simp, hi, hx⟩
          · rintro ⟨m', d', c', hm, hc', hx⟩
            simp only [List.mem_cons, List.not_mem_nil, or_false, Prod.mk.injEq] at hm
            obtain ⟨rfl, rfl⟩ := hm
            rw [hi] at hc'
            obtain rfl := Option.some.inj hc'
            exact hx
      · rw [if_neg hc] at h
        simp only [Except.ok.injEq] at h
        subst h
        refine ⟨always_err t, ?_⟩
        intro h
        simp only [CTopo.err] at h
        omega

theorem incNodes_ok {expand : String → String → CNode α → CTopo α → Except CompAbort (CTopo α)} (he : ExpandOk expand)
    (n : String) (l : List (String × CNode α)) (t t' : CTopo α) (h : incNodes expand n l t = .ok t') :
    Always t t' ∧ (t'.errors = t.errors → ∃ ns is, Adds t t' ns is ∧ (∀ x, x ∈ ns ↔ NodeIn t.comps n l x) ∧
      ∀ i, i ∈ is ↔ InstIn t.comps n l i) := by
  induction l generalizing t with
  | nil =>
    simp only [incNodes, Except.ok.injEq] at h
    subst h
    refine ⟨.refl t, fun _ => ⟨[], [], .refl t, ?_, ?_⟩⟩
    · intro x
      simp [NodeIn]
    · intro i
      simp [InstIn]
  | cons x rest ih =>
    obtain ⟨m, d⟩ := x
    simp only [incNodes] at h
    have hc := always_checkId (incName n m) t
    cases h1 : incNode expand n m d (checkId (incName n m) t) with
    | error a => simp [h1] at h
    | ok t1 =>
      simp only [h1] at h
      obtain ⟨a1, b1⟩ := incNode_ok he n m d _ t1 h1
      obtain ⟨a2, b2⟩ := ih t1 h
      refine ⟨hc.trans (a1.trans a2), fun hz => ?_⟩
      have e1 := hc.errors
      have e2 := a1.errors
      have e3 := a2.errors
      have hid := checkId_ok (incName n m) t (by omega)
      rw [hid] at a1 b1
      obtain ⟨ns, is, ha, hn, hs⟩ := b1 (by omega)
      obtain ⟨ms, js, ha', hn', hs'⟩ := b2 (by omega)
      rw [a1.comps] at hn' hs'
      refine ⟨ns ++ ms, is ++ js, ha.trans a1.comps ha', ?_, ?_⟩
      · intro x
        rw [List.mem_append, hn, hn']
        unfold NodeIn
        constructor
        · rintro (⟨m', d', hm, hx⟩ | ⟨m', d', hm, hx⟩)
          · exact ⟨m', d', by simp at hm; simp [hm], hx⟩
          · exact ⟨m', d', List.mem_cons_of_mem _ hm, hx⟩
        · rintro ⟨m', d', hm, hx⟩
          rcases List.mem_cons.mp hm with hm | hm
          · exact .inl ⟨m', d', by simp [hm], hx⟩
          · exact .inr ⟨m', d', hm, hx⟩
      · intro i
        rw [List.mem_append, hs, hs']
        unfold InstIn
        constructor
        · rintro (⟨m', d', c', hm, hx⟩ | ⟨m', d', c', hm, hx⟩)
          · exact ⟨m', d', c', by simp at hm; simp [hm], hx⟩
          · exact ⟨m', d', c', List.mem_cons_of_mem _ hm, hx⟩
        · rintro ⟨m', d', c', hm, hx⟩
          rcases List.mem_cons.mp hm with hm | hm
          · exact .inl ⟨m', d', c', by simp [hm], hx⟩
          · exact .inr ⟨m', d', c', hm, hx⟩

theorem within_iff {comps : List (String × Comp α)} {n c : String} {comp : Comp α} (hc : comps.lookup c = some comp)
    (i : String × String) : Within comps n c i.1 i.2 ↔ InstIn comps n comp.nodes i ∨ i = (n, c) := by
  constructor
  · intro h
    obtain ⟨p, cp⟩ := i
    simp only at h
    cases h with
    | same => exact .inr rfl
    | nested _ _ m c' _ _ comp' d hc' hm hi h =>
      rw [hc] at hc'
      obtain rfl := Option.some.inj hc'
      exact .inl ⟨m, d, c', hm, hi, h⟩
  · rintro (⟨m, d, c', hm, hi, h⟩ | h)
    · exact .nested n c m c' _ _ comp d hc hm hi h
    · subst h
      exact .same n c

theorem nodeFrom_iff {comps : List (String × Comp α)} {n c : String} {comp : Comp α} (hc : comps.lookup c = some comp)
    (x : String × CNode α) : NodeFrom comps n c x ↔ NodeIn comps n comp.nodes x := by
  constructor
  · rintro ⟨p, cp, comp', m, d, hw, hcp, hm, hi, hx⟩
    rcases (within_iff hc (p, cp)).mp hw with ⟨m0, d0, c0, hm0, hi0, hw0⟩ | heq
    · exact ⟨m0, d0, hm0, .inr ⟨c0, hi0, p, cp, comp', m, d, hw0, hcp, hm, hi, hx⟩⟩
    · simp only [Prod.mk.injEq] at heq
      obtain ⟨rfl, rfl⟩ := heq
      rw [hc] at hcp
      obtain rfl := Option.some.inj hcp
      exact ⟨m, d, hm, .inl ⟨hi, hx⟩⟩
  · rintro ⟨m, d, hm, hx⟩
    rcases hx with ⟨hi, hx⟩ | ⟨c', hi, p, cp, comp', m', d', hw, hcp, hm', hi', hx⟩
    · exact ⟨n, c, comp, m, d, .same n c, hc, hm, hi, hx⟩
    · exact ⟨p, cp, comp', m', d', .nested n c m c' p cp comp d hc hm hi hw, hcp, hm', hi', hx⟩

theorem expandOk (f : Nat) : ExpandOk (α := α) (expandInclude f) := by
  induction f with
  | zero =>
    intro n c d t t' _ h
    simp [expandInclude] at h
  | succ f ih =>
    intro n c d t t' hsome h
    obtain ⟨comp, hc⟩ := Option.isSome_iff_exists.mp hsome
    simp only [expandInclude, hc] at h
    cases h1 : incNodes (expandInclude f) n comp.nodes t with
    | error a => simp [h1] at h
    | ok t1 =>
      simp only [h1, Except.ok.injEq] at h
      subst h
      obtain ⟨a1, b1⟩ := incNodes_ok ih n comp.nodes t t1 h1
      obtain ⟨a2, n2, g2, e2, new, l2, f2⟩ := always_incLinks n comp.links t1
      obtain ⟨a3, n3, l3, g3⟩ := always_incGroup n d comp (incLinks n comp.links t1)
      refine ⟨a1.trans (a2.trans a3), fun hz => ?_⟩
      have q1 := a1.errors
      have q2 := a2.errors
      have q3 := a3.errors
      obtain ⟨ns, is, ha, hn, hs⟩ := b1 (by omega)
      have hadd : Adds t1 (incGroup n d comp (incLinks n comp.links t1)) [] [(n, c)] := by
        refine ⟨by rw [n3, n2]; simp, ⟨new, by rw [l3, l2], ?_⟩,
          ⟨[(incGroupName n, ⟨incMembers n comp, [comp.data, d.data]⟩)], by rw [g3 (by omega), g2], ?_⟩⟩
        · rw [a1.comps]
          have := LinksOf.cons (comps := t.comps) n c comp [] new [] hc f2 .nil
          rw [List.append_nil] at this
          exact this
        · rw [a1.comps]
          exact .cons ⟨rfl, comp, hc, rfl⟩ .nil
      have := ha.trans a1.comps hadd
      rw [List.append_nil] at this
      refine ⟨ns, is ++ [(n, c)], this, ?_, ?_⟩
      · intro x
        rw [hn, nodeFrom_iff hc]
      · intro i
        rw [List.mem_append, hs, within_iff hc]
        simp

/-! ### The loop over topology nodes -/

theorem always_expandNode (f : Nat) (n : String) (t t' : CTopo α) (h : expandNode f n t = .ok t') : Always t t' := by
  have hf : Always t { t with nodes := t.nodes.filter (fun x => x.1 != n) } :=
    ⟨Nat.le_refl _, rfl, fun hn => hn.sublist (List.filter_sublist.map _), id, id, rfl,
      fun h => Nat.le_trans (List.length_filter_le _ _) h⟩
  unfold expandNode at h
  split at h
  · simp only [Except.ok.injEq] at h
    subst h
    exact .refl t
  · split at h
    · simp only [Except.ok.injEq] at h
      subst h
      exact .refl t
    · split at h
      · rename_i hc
        exact hf.trans (expandOk f n _ _ { t with nodes := t.nodes.filter (fun x => x.1 != n) } t' hc h).1
      · simp only [Except.ok.injEq] at h
        subst h
        exact hf.trans (always_err _)

theorem always_loop (f : Nat) (ns : List String) (t t' : CTopo α) (h : expandLoop f ns t = .ok t') : Always t t' := by
  induction ns generalizing t with
  | nil =>
    simp only [expandLoop, Except.ok.injEq] at h
    subst h
    exact .refl t
  | cons n rest ih =>
    simp only [expandLoop] at h
    cases h1 : expandNode f n t with
    | error a => simp [h1] at h
    | ok t1 =>
      simp only [h1] at h
      exact (always_expandNode f n t t1 h1).trans (ih t1 h)

/-- The state of the loop: nodes in `done` were processed. -/
structure LoopInv (t₀ : CTopo α) (done todo : List (String × CNode α)) (t : CTopo α) (ns : List (String × CNode α))
    (is : List (String × String)) : Prop where
  nodes : t.nodes = done.filter (fun x => x.2.incl.isNone) ++ todo ++ ns
  comps : t.comps = t₀.comps
  links : ∃ new, t.links = t₀.links ++ new ∧ LinksOf t₀.comps is new
  groups : ∃ new, t.groups = t₀.groups ++ new ∧ GroupsOf t₀.comps is new
  from' : ∀ x, x ∈ ns ↔ ∃ n d c, (n, d) ∈ done ∧ d.incl = some c ∧ NodeFrom t₀.comps n c x
  inst : ∀ i, i ∈ is ↔ ∃ n d c, (n, d) ∈ done ∧ d.incl = some c ∧ Within t₀.comps n c i.1 i.2

theorem loop_inv (f : Nat) (t₀ : CTopo α) (todo done : List (String × CNode α)) (t t' : CTopo α)
    (ns : List (String × CNode α)) (is : List (String × String)) (hi : LoopInv t₀ done todo t ns is)
    (hn : (t.nodes.map Prod.fst).Nodup) (h : expandLoop f (todo.map Prod.fst) t = .ok t') (hz : t'.errors = t.errors) :
    ∃ ns is, LoopInv t₀ (done ++ todo) [] t' ns is := by
  induction todo generalizing done t ns is with
  | nil =>
    simp only [List.map_nil, expandLoop, Except.ok.injEq] at h
    subst h
    exact ⟨ns, is, by simpa using hi⟩
  | cons x rest ih =>
    obtain ⟨n, d⟩ := x
    simp only [List.map_cons, expandLoop] at h
    cases h1 : expandNode f n t with
    | error a => simp [h1] at h
    | ok t1 =>
      simp only [h1] at h
      have al1 := always_expandNode f n t t1 h1
      have al2 := always_loop f _ t1 t' h
      have e1 := al1.errors
      have e2 := al2.errors
      have hmem : (n, d) ∈ t.nodes := by
        rw [hi.nodes]
        simp
      have hlook := lookup_of_mem hn hmem
      unfold expandNode at h1
      simp only [hlook] at h1
      rw [show done ++ (n, d) :: rest = (done ++ [(n, d)]) ++ rest by simp]
      cases hinc : d.incl with
      | none =>
        simp only [hinc, Except.ok.injEq] at h1
        subst h1
        refine ih (done ++ [(n, d)]) t ns is ?_ hn h hz
        refine ⟨?_, hi.comps, hi.links, hi.groups, ?_, ?_⟩
        · rw [hi.nodes, List.filter_append]
          simp [hinc]
        · intro y
          rw [hi.from']
          constructor
          · rintro ⟨n', d', c', hm, q⟩
            exact ⟨n', d', c', List.mem_append_left _ hm, q⟩
          · rintro ⟨n', d', c', hm, q1, q2⟩
            rcases List.mem_append.mp hm with hm | hm
            · exact ⟨n', d', c', hm, q1, q2⟩
            · simp only [List.mem_cons, List.not_mem_nil, or_false, Prod.mk.injEq] at hm
              rw [hm.2, hinc] at q1
              exact absurd q1 (by simp)
        · intro y
          rw [hi.inst]
          constructor
          · rintro ⟨n', d', c', hm, q⟩
            exact ⟨n', d', c', List.mem_append_left _ hm, q⟩
          · rintro ⟨n', d', c', hm, q1, q2⟩
            rcases List.mem_append.mp hm with hm | hm
            · exact ⟨n', d', c', hm, q1, q2⟩
            · simp only [List.mem_cons, List.not_mem_nil, or_false, Prod.mk.injEq] at hm
              rw [hm.2, hinc] at q1
              exact absurd q1 (by simp)
      | some c =>
        simp only [hinc] at h1
        by_cases hc : (t.comps.lookup c).isSome = true
        · rw [if_pos hc] at h1
          have hex := (expandOk f n c d { t with nodes := t.nodes.filter (fun x => x.1 != n) } t1 hc h1).2
          obtain ⟨ms, js, ha, hms, hjs⟩ := hex (by simp only; omega)
          simp only at hms hjs
          rw [hi.comps] at hms hjs
          have hfil : t.nodes.filter (fun x => x.1 != n) =
              done.filter (fun x => x.2.incl.isNone) ++ rest ++ ns := by
            rw [hi.nodes] at hn ⊢
            simp only [List.append_assoc, List.cons_append, List.map_append, List.map_cons] at hn ⊢
            rw [List.nodup_append] at hn
            obtain ⟨-, hn2, hn3⟩ := hn
            rw [List.nodup_cons] at hn2
            rw [List.filter_append, List.filter_cons, if_neg (by simp)]
            congr 1
            · rw [List.filter_eq_self]
              intro y hy
              have := hn3 y.1 (List.mem_map_of_mem hy) n (List.mem_cons_self ..)
              simpa using this
            · rw [List.filter_eq_self]
              intro y hy
              have : y.1 ≠ n := by
                intro hyn
                apply hn2.1
                rw [← List.map_append]
                exact List.mem_map.mpr ⟨y, hy, hyn⟩
              simpa using this
          refine ih (done ++ [(n, d)]) t1 (ns ++ ms) (is ++ js) ?_ (al1.nodup hn) h (by omega)
          obtain ⟨lnew, hl1, hl2⟩ := hi.links
          obtain ⟨lnew', hl1', hl2'⟩ := ha.links
          obtain ⟨gnew, hg1, hg2⟩ := hi.groups
          obtain ⟨gnew', hg1', hg2'⟩ := ha.groups
          simp only [hi.comps] at hl2' hg2'
          refine ⟨?_, al1.comps.trans hi.comps, ⟨lnew ++ lnew', ?_, linksOf_append hl2 hl2'⟩,
            ⟨gnew ++ gnew', ?_, List.rel_append hg2 hg2'⟩, ?_, ?_⟩
          · rw [ha.nodes]
            simp only
            rw [hfil, List.filter_append]
            simp [hinc]
          · rw [hl1', ← List.append_assoc, ← hl1]
          · rw [hg1', ← List.append_assoc, ← hg1]
          · intro y
            rw [List.mem_append, hi.from', hms]
            constructor
            · rintro (⟨n', d', c', hm, q⟩ | q)
              · exact ⟨n', d', c', List.mem_append_left _ hm, q⟩
              · exact ⟨n, d, c, by simp, hinc, q⟩
            · rintro ⟨n', d', c', hm, q1, q2⟩
              rcases List.mem_append.mp hm with hm | hm
              · exact .inl ⟨n', d', c', hm, q1, q2⟩
              · simp only [List.mem_cons, List.not_mem_nil, or_false, Prod.mk.injEq] at hm
                obtain ⟨rfl, rfl⟩ := hm
                rw [hinc] at q1
                obtain rfl := Option.some.inj q1
                exact .inr q2
          · intro y
            rw [List.mem_append, hi.inst, hjs]
            constructor
            · rintro (⟨n', d', c', hm, q⟩ | q)
              · exact ⟨n', d', c', List.mem_append_left _ hm, q⟩
              · exact ⟨n, d, c, by simp, hinc, q⟩
            · rintro ⟨n', d', c', hm, q1, q2⟩
              rcases List.mem_append.mp hm with hm | hm
              · exact .inl ⟨n', d', c', hm, q1, q2⟩
              · simp only [List.mem_cons, List.not_mem_nil, or_false, Prod.mk.injEq] at hm
                obtain ⟨rfl, rfl⟩ := hm
                rw [hinc] at q1
                obtain rfl := Option.some.inj q1
                exact .inr q2
        · rw [if_neg hc] at h1
          simp only [Except.ok.injEq] at h1
          subst h1
          simp only [CTopo.err] at e1 e2
          omega

theorem expand_inv (f : Nat) (t t' : CTopo α) (hn : (t.nodes.map Prod.fst).Nodup) (h : expandComponents f t = .ok t')
    (hz : t'.errors = t.errors) : ∃ ns is, LoopInv t t.nodes [] t' ns is := by
  have := loop_inv f t t.nodes [] t t' [] []
    ⟨by simp, rfl, ⟨[], by simp, .nil⟩, ⟨[], by simp, .nil⟩, by simp, by simp⟩ hn h hz
  simpa using this

/-- **C39.**  After an expansion without errors, the topology has its own nodes, and a node with a composite name for
every node in every instance of a component, nested or not; node names are unique. -/
theorem C39_nodes (f : Nat) (t t' : CTopo α) (hn : (t.nodes.map Prod.fst).Nodup) (h : expandComponents f t = .ok t')
    (hz : t'.errors = t.errors) :
    (t'.nodes.map Prod.fst).Nodup ∧
    ∀ k d, (k, d) ∈ t'.nodes ↔ ((k, d) ∈ t.nodes ∧ d.incl = none) ∨
      ∃ p c comp m, Instance t p c ∧ t.comps.lookup c = some comp ∧ (m, d) ∈ comp.nodes ∧ d.incl = none ∧
        k = p ++ "_" ++ m := by
  obtain ⟨ns, is, hi⟩ := expand_inv f t t' hn h hz
  refine ⟨(always_loop f _ t t' h).nodup hn, ?_⟩
  intro k d
  rw [hi.nodes, List.append_nil, List.mem_append, List.mem_filter, hi.from']
  constructor
  · rintro (⟨h1, h2⟩ | ⟨n, d0, c, hm, hc, p, cp, comp, m, d', hw, hcp, hm', hi', hx⟩)
    · exact .inl ⟨h1, by simpa using h2⟩
    · simp only [Prod.mk.injEq] at hx
      obtain ⟨rfl, rfl⟩ := hx
      exact .inr ⟨p, cp, comp, m, ⟨n, d0, c, hm, hc, hw⟩, hcp, hm', hi', rfl⟩
  · rintro (⟨h1, h2⟩ | ⟨p, cp, comp, m, ⟨n, d0, c, hm, hc, hw⟩, hcp, hm', hi', rfl⟩)
    · exact .inl ⟨h1, by simp [h2]⟩
    · exact .inr ⟨n, d0, c, hm, hc, p, cp, comp, m, d, hw, hcp, hm', hi', rfl⟩

/-- **C39.**  When the topology has no more nodes than allowed before the expansion, it doesn't have more of them after the
expansion: adding too many nodes aborts the process. -/
theorem C39_node_limit (f : Nat) (t t' : CTopo α) (h : expandComponents f t = .ok t')
    (hm : t.nodes.length ≤ t.maxNodes) : t'.nodes.length ≤ t.maxNodes :=
  (always_loop f _ t t' h).limit hm

theorem groupNames {comps : List (String × Comp α)} {is : List (String × String)} {gs : List (String × CGroup α)}
    (h : GroupsOf comps is gs) : gs.map Prod.fst = is.map (fun i => incGroupName i.1) := by
  induction h with
  | nil => rfl
  | cons hg _ ih => simp [hg.1, ih]

/-- **C39.**  Links of the topology stay where they were, followed by a copy of every link of every instance of a
component (every instance once); link indices are increasing. -/
theorem C39_links (f : Nat) (t t' : CTopo α) (hn : (t.nodes.map Prod.fst).Nodup) (hg : (t.groups.map Prod.fst).Nodup)
    (h : expandComponents f t = .ok t') (hz : t'.errors = t.errors) :
    (∃ is new, (is.map Prod.fst).Nodup ∧ (∀ p c, (p, c) ∈ is ↔ Instance t p c) ∧ t'.links = t.links ++ new ∧
      LinksOf t.comps is new) ∧
    ((t.links.map CLink.index).Pairwise (· < ·) → (t'.links.map CLink.index).Pairwise (· < ·)) := by
  obtain ⟨ns, is, hi⟩ := expand_inv f t t' hn h hz
  have al := always_loop f _ t t' h
  obtain ⟨new, hl, hlo⟩ := hi.links
  obtain ⟨gnew, hgl, hgo⟩ := hi.groups
  refine ⟨⟨is, new, ?_, ?_, hl, hlo⟩, al.index⟩
  · have hnd := al.gnodup hg
    rw [hgl, List.map_append, List.nodup_append, groupNames hgo] at hnd
    have h1 := hnd.2.1
    rw [show is.map (fun i => incGroupName i.1) = (is.map Prod.fst).map incGroupName by simp] at h1
    unfold List.Nodup at h1 ⊢
    rw [List.pairwise_map] at h1
    exact h1.imp (fun hne he => hne (by rw [he]))
  · intro p c
    rw [hi.inst]
    rfl

/-- **C39.**  Every instance of a component has a group with all its nodes, and the groups of nested instances. -/
theorem C39_groups (f : Nat) (t t' : CTopo α) (hn : (t.nodes.map Prod.fst).Nodup) (hg : (t.groups.map Prod.fst).Nodup)
    (h : expandComponents f t = .ok t') (hz : t'.errors = t.errors) (p c : String) (comp : Comp α) (hp : Instance t p c)
    (hc : t.comps.lookup c = some comp) :
    ∃ g, t'.groups.lookup ("inc_" ++ p) = some g ∧ g.members = comp.nodes.map (fun x =>
      match x.2.incl with
      | none => p ++ "_" ++ x.1
      | some _ => "inc_" ++ (p ++ "_" ++ x.1)) := by
  obtain ⟨ns, is, hi⟩ := expand_inv f t t' hn h hz
  have al := always_loop f _ t t' h
  obtain ⟨gnew, hgl, hgo⟩ := hi.groups
  have hin : (p, c) ∈ is := (hi.inst (p, c)).mpr hp
  have hex : ∃ g, g ∈ gnew ∧ g.1 = incGroupName p ∧ g.2.members = incMembers p comp := by
    clear hgl
    unfold GroupsOf at hgo
    clear hi
    induction hgo with
    | nil => exact absurd hin (by simp)
    | @cons i g is' gs' hh _ ih =>
      rcases List.mem_cons.mp hin with hin | hin
      · subst hin
        obtain ⟨h1, comp', h2, h3⟩ := hh
        rw [hc] at h2
        obtain rfl := Option.some.inj h2
        exact ⟨g, List.mem_cons_self .., h1, h3⟩
      · obtain ⟨g', q1, q2⟩ := ih hin
        exact ⟨g', List.mem_cons_of_mem _ q1, q2⟩
  obtain ⟨⟨gn, g⟩, hm, hname, hmem⟩ := hex
  simp only at hname hmem
  subst hname
  refine ⟨g, lookup_of_mem (al.gnodup hg) (by rw [hgl]; exact List.mem_append_right _ hm), ?_⟩
  rw [hmem]
  unfold incMembers
  apply List.map_congr_left
  intro x _
  cases x.2.incl <;> rfl

theorem linkCopy_ends {p : String} {ls new : List (CLink α)} (h : List.Forall₂ (LinkCopy p) ls new) (l : CLink α)
    (hl : l ∈ new) : ∃ l0 ∈ ls, LinkCopy p l0 l := by
  induction h with
  | nil => exact absurd hl (by simp)
  | cons hh _ ih =>
    rcases List.mem_cons.mp hl with hl | hl
    · subst hl
      exact ⟨_, List.mem_cons_self .., hh⟩
    · obtain ⟨l0, q1, q2⟩ := ih hl
      exact ⟨l0, List.mem_cons_of_mem _ q1, q2⟩

theorem linksOf_mem {comps : List (String × Comp α)} {is : List (String × String)} {new : List (CLink α)}
    (h : LinksOf comps is new) (l : CLink α) (hl : l ∈ new) :
    ∃ p c comp l0, (p, c) ∈ is ∧ comps.lookup c = some comp ∧ l0 ∈ comp.links ∧ LinkCopy p l0 l := by
  induction h with
  | nil => exact absurd hl (by simp)
  | cons p c comp is new rest hc hf _ ih =>
    rcases List.mem_append.mp hl with hl | hl
    · obtain ⟨l0, q1, q2⟩ := linkCopy_ends hf l hl
      exact ⟨p, c, comp, l0, List.mem_cons_self .., hc, q1, q2⟩
    · obtain ⟨p', c', comp', l0, q1, q2⟩ := ih hl
      exact ⟨p', c', comp', l0, List.mem_cons_of_mem _ q1, q2⟩

/-- **C39.**  When component links use nodes of the component that are not components, there are no dangling links. -/
theorem C39_link_ends (f : Nat) (t t' : CTopo α) (hn : (t.nodes.map Prod.fst).Nodup)
    (h : expandComponents f t = .ok t') (hz : t'.errors = t.errors)
    (hends : ∀ c comp l e, t.comps.lookup c = some comp → l ∈ comp.links → e ∈ l.ends →
      ∃ d, (e.1, d) ∈ comp.nodes ∧ d.incl = none) :
    ∃ new, t'.links = t.links ++ new ∧ ∀ l ∈ new, ∀ e ∈ l.ends, ∃ d, (e.1, d) ∈ t'.nodes := by
  have hnodes := (C39_nodes f t t' hn h hz).2
  obtain ⟨ns, is, hi⟩ := expand_inv f t t' hn h hz
  obtain ⟨new, hl, hlo⟩ := hi.links
  refine ⟨new, hl, ?_⟩
  intro l hlm e he
  obtain ⟨p, c, comp, l0, hin, hc, hl0, -, -, hcopy⟩ := linksOf_mem hlo l hlm
  rw [hcopy] at he
  obtain ⟨e0, he0, rfl⟩ := List.mem_map.mp he
  obtain ⟨d, hd, hdi⟩ := hends c comp l0 e0 hc hl0 he0
  exact ⟨d, (hnodes _ d).mpr (.inr ⟨p, c, comp, e0.1, (hi.inst (p, c)).mp hin, hc, hd, hdi, rfl⟩)⟩

/-! ### Termination -/

/-- The expansion was not aborted because of recursion. -/
def NoRec (r : Except CompAbort (CTopo α)) : Prop := r ≠ .error .recursion

theorem incNodes_norec {expand : String → String → CNode α → CTopo α → Except CompAbort (CTopo α)} (he : ExpandOk expand)
    (n : String) (comps : List (String × Comp α)) (l : List (String × CNode α))
    (hx : ∀ m d c t, (m, d) ∈ l → d.incl = some c → t.comps = comps → NoRec (expand (incName n m) c d t)) (t : CTopo α)
    (ht : t.comps = comps) : NoRec (incNodes expand n l t) := by
  induction l generalizing t with
  | nil => simp [incNodes, NoRec]
  | cons x rest ih =>
    obtain ⟨m, d⟩ := x
    simp only [incNodes]
    have hck := always_checkId (incName n m) t
    have hnode : NoRec (incNode expand n m d (checkId (incName n m) t)) := by
      unfold incNode
      split
      · simp [NoRec]
      · split
        · unfold addIncluded
          split <;> simp [NoRec]
        · rename_i c hc
          split
          · exact hx m d c _ (List.mem_cons_self ..) hc (hck.comps.trans ht)
          · simp [NoRec]
    cases h1 : incNode expand n m d (checkId (incName n m) t) with
    | error a =>
      rw [h1] at hnode
      exact hnode
    | ok t1 =>
      have al := (incNode_ok he n m d _ t1 h1).1
      exact ih (fun m' d' c' t' hm => hx m' d' c' t' (List.mem_cons_of_mem _ hm)) t1
        (al.comps.trans (hck.comps.trans ht))

theorem expand_norec (rank : String → Nat) (comps : List (String × Comp α)) (hr : NotRecursive comps rank) (f : Nat)
    (n c : String) (d : CNode α) (t : CTopo α) (ht : t.comps = comps) (hf : rank c < f) : NoRec (expandInclude f n c d t) := by
  induction f generalizing n c d t with
  | zero => omega
  | succ f ih =>
    simp only [expandInclude]
    split
    · simp [NoRec]
    · rename_i comp hc
      rw [ht] at hc
      have h1 : NoRec (incNodes (expandInclude f) n comp.nodes t) := by
        apply incNodes_norec (expandOk f) n comps comp.nodes _ t ht
        intro m d' c' t' hm hi' ht'
        apply ih _ _ _ _ ht'
        have := hr c comp m d' c' hc hm hi'
        omega
      cases h2 : incNodes (expandInclude f) n comp.nodes t with
      | error a =>
        rw [h2] at h1
        exact h1
      | ok t1 => simp [NoRec]

/-- **C39.**  The expansion terminates when components are not recursive, however deep they are nested. -/
theorem C39_terminates (rank : String → Nat) (t : CTopo α) (hr : NotRecursive t.comps rank) :
    ∃ F, ∀ f, F ≤ f → expandComponents f t ≠ .error .recursion := by
  -- the fuel: larger than the rank of all components
  have hbound : ∃ F, ∀ c comp, (c, comp) ∈ t.comps → rank c < F := by
    generalize t.comps = l
    induction l with
    | nil => exact ⟨0, by simp⟩
    | cons x rest ih =>
      obtain ⟨F, hF⟩ := ih
      refine ⟨max F (rank x.1 + 1), ?_⟩
      intro c comp hm
      rcases List.mem_cons.mp hm with hm | hm
      · rw [← hm]
        simp only
        omega
      · have := hF c comp hm
        omega
  obtain ⟨F, hF⟩ := hbound
  refine ⟨F, fun f hf => ?_⟩
  unfold expandComponents
  generalize t.nodes.map Prod.fst = ns
  have hgen : ∀ (ns : List String) (t1 : CTopo α), t1.comps = t.comps → NoRec (expandLoop f ns t1) := by
    intro ns
    induction ns with
    | nil =>
      intro t1 _
      simp [expandLoop, NoRec]
    | cons n rest ih =>
      intro t1 ht1
      simp only [expandLoop]
      have h1 : NoRec (expandNode f n t1) := by
        unfold expandNode
        split
        · simp [NoRec]
        · split
          · simp [NoRec]
          · rename_i c _
            split
            · rename_i hc
              apply expand_norec rank t.comps hr f n c _ { t1 with nodes := t1.nodes.filter (fun x => x.1 != n) } ht1
              rw [ht1] at hc
              obtain ⟨comp, hcomp⟩ := Option.isSome_iff_exists.mp hc
              have := hF c comp (mem_of_lookup hcomp)
              omega
            · simp [NoRec]
      cases h2 : expandNode f n t1 with
      | error a =>
        rw [h2] at h1
        exact h1
      | ok t2 => exact ih t2 ((always_expandNode f n t1 t2 h2).comps.trans ht1)
  exact hgen ns t rfl

/-! ### Concrete topologies -/

/-- A topology with a nested component: `x` includes `site`, `site` has a router and a nested `pair`. -/
def compDemo : CTopo Nat where
  nodes := [("r", ⟨none, 1⟩), ("x", ⟨some "site", 2⟩)]
  links := [⟨"links[1]", 1, [("r", 0)], 0⟩]
  groups := []
  comps := [("site", ⟨[("gw", ⟨none, 3⟩), ("p", ⟨some "pair", 4⟩)], [⟨"l[1]", 0, [("gw", 0)], 5⟩], 6⟩),
            ("pair", ⟨[("a", ⟨none, 7⟩), ("b", ⟨none, 8⟩)], [⟨"l[1]", 0, [("a", 0), ("b", 0)], 9⟩], 10⟩)]
  idOk := fun _ => true
  firstLink := 1
  maxNodes := 150
  errors := 0

/-- What matters in the result of an expansion: node names, ends of links, and groups. -/
structure CompView where
  nodes : List String
  links : List (Nat × List String)
  groups : List (String × List String)
  errors : Nat
deriving DecidableEq

/-- What matters in the result of an expansion. -/
def compView (r : Except CompAbort (CTopo Nat)) : Option CompView :=
  match r with
  | .error _ => none
  | .ok t => some ⟨t.nodes.map Prod.fst, t.links.map (fun l => (l.index, l.ends.map Prod.fst)),
      t.groups.map (fun g => (g.1, g.2.members)), t.errors⟩

example : compView (expandComponents 3 compDemo) =
    some ⟨["r", "x_gw", "x_p_a", "x_p_b"], [(1, ["r"]), (2, ["x_p_a", "x_p_b"]), (3, ["x_gw"])],
      [("inc_x_p", ["x_p_a", "x_p_b"]), ("inc_x", ["x_gw", "inc_x_p"])], 0⟩ := by decide +kernel

/-- The demo components are not recursive. -/
example : NotRecursive compDemo.comps (fun c => if c = "site" then 1 else 0) := by
  intro c comp m d c' hc hm hi
  have hmem := mem_of_lookup hc
  simp only [compDemo, List.mem_cons, Prod.mk.injEq, List.not_mem_nil, or_false] at hmem
  rcases hmem with ⟨rfl, rfl⟩ | ⟨rfl, rfl⟩
  · simp only [List.mem_cons, Prod.mk.injEq, List.not_mem_nil, or_false] at hm
    rcases hm with ⟨rfl, rfl⟩ | ⟨rfl, rfl⟩
    · simp at hi
    · simp only [Option.some.injEq] at hi
      subst hi
      decide
  · simp only [List.mem_cons, Prod.mk.injEq, List.not_mem_nil, or_false] at hm
    rcases hm with ⟨rfl, rfl⟩ | ⟨rfl, rfl⟩ <;> simp at hi

/-- A topology with a component that includes itself. -/
def compSelf : CTopo Nat where
  nodes := [("x", ⟨some "c", 0⟩)]
  links := []
  groups := []
  comps := [("c", ⟨[("a", ⟨some "c", 0⟩)], [], 0⟩)]
  idOk := fun _ => true
  firstLink := 1
  maxNodes := 150
  errors := 0

/-- **C39, recursive components.**  The expansion of a component that includes itself never ends: there is no check for
recursive components. -/
theorem C39_recursive_component (f : Nat) : expandComponents f compSelf = .error .recursion := by
  have hgen : ∀ f n d (t : CTopo Nat), t.comps = compSelf.comps → t.nodes = [] →
      expandInclude f n "c" d t = .error .recursion := by
    intro f
    induction f with
    | zero =>
      intro n d t _ _
      rfl
    | succ f ih =>
      intro n d t hc hn
      have hlook : t.comps.lookup "c" = some ⟨[("a", ⟨some "c", 0⟩)], [], 0⟩ := by
        rw [hc]
        rfl
      have hck : checkId (incName n "a") t = t ∨ checkId (incName n "a") t = t.err := by
        unfold checkId
        split
        · exact .inl rfl
        · exact .inr rfl
      have hnode : incNode (expandInclude f) n "a" ⟨some "c", 0⟩ (checkId (incName n "a") t) = .error .recursion := by
        unfold incNode
        rcases hck with h | h
        · rw [h, hn, if_neg (by simp)]
          simp only
          rw [hlook]
          simp only [Option.isSome_some, if_true]
          exact ih _ _ t hc hn
        · have hn' : t.err.nodes = [] := hn
          have hl' : t.err.comps.lookup "c" = some ⟨[("a", ⟨some "c", 0⟩)], [], 0⟩ := hlook
          rw [h, hn', if_neg (by simp)]
          simp only
          rw [hl']
          simp only [Option.isSome_some, if_true]
          exact ih _ _ t.err hc hn'
      simp only [expandInclude, hlook, incNodes, hnode]
  have h1 : expandNode f "x" compSelf = .error .recursion := by
    unfold expandNode
    exact hgen f "x" _ _ rfl (by decide)
  unfold expandComponents
  show expandLoop f ["x"] compSelf = _
  simp only [expandLoop, h1]

/-- **C39, an exception.**  A link in a component may use a nested component as if it were a node: the expansion
reports no error, and the link refers to a node that does not exist. -/
theorem C39_dangling_link :
    compView (expandComponents 3 { compDemo with
      comps := [("site", ⟨[("gw", ⟨none, 3⟩), ("p", ⟨some "pair", 4⟩)], [⟨"l[1]", 0, [("gw", 0), ("p", 0)], 5⟩], 6⟩),
                ("pair", ⟨[("a", ⟨none, 7⟩), ("b", ⟨none, 8⟩)], [], 10⟩)] }) =
    some ⟨["r", "x_gw", "x_p_a", "x_p_b"], [(1, ["r"]), (2, ["x_gw", "x_p"])],
      [("inc_x_p", ["x_p_a", "x_p_b"]), ("inc_x", ["x_gw", "inc_x_p"])], 0⟩ := by decide +kernel

end Netlab
