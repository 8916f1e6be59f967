import Verif.Lemmas.Groups
/-!
# C14: group hierarchies
-/

namespace Netlab
open Spec

/-- **C14 (recursive groups).**  The check for recursive groups reports an error exactly when
some group contains itself, directly or through any number of other groups. -/
theorem C14_rejected_iff_recursive (gs : Groups) : checkRecursive gs = true ↔ Recursive gs := by
  unfold checkRecursive
  constructor
  · intro h
    obtain ⟨p, hp, h⟩ := List.any_eq_true.1 h
    refine checkChain_true _ [] p.1 (by simp) (by simp) ?_ h
    rw [has_iff]
    cases hl : gs.lookup p.1 with
    | some d => exact ⟨d, rfl⟩
    | none =>
      rw [lookup_eq_none_iff] at hl
      exact absurd (List.mem_map.2 ⟨p, hp, rfl⟩) hl
  · rintro ⟨g, hc⟩
    by_contra hno
    have hg : gs.has g = true := by
      obtain ⟨b, -, hb⟩ := Relation.TransGen.tail'_iff.1 hc
      exact (subGroup_iff.1 hb).2
    obtain ⟨p, hp, rfl⟩ := List.mem_map.1 (lookup_mem_keys hg)
    have hf : checkChain gs (gs.length + 1) [] p.1 = false := by
      cases hcc : checkChain gs (gs.length + 1) [] p.1 with
      | false => rfl
      | true => exact absurd (List.any_eq_true.2 ⟨p, hp, hcc⟩) hno
    exact checkChain_false hc _ [] (by simp) (by simp) hg (by simp) hf (by simp)

/-- **C14 (sorting terminates).**  Without recursive groups, sorting groups is done after at
most as many passes as there are groups.  (With recursive groups, the loop would never end;
that's why they have to be rejected first.) -/
theorem C14_sort_terminates_iff (gs : Groups) (hn : (gs.map (·.1)).Nodup) :
    (¬ Recursive gs → ∀ fuel, gs.length ≤ fuel → ∃ order, reverseTopsort gs fuel = some order) ∧
    (Recursive gs → ∀ fuel, reverseTopsort gs fuel = none) := by
  constructor
  · intro h fuel hf
    cases hr : reverseTopsort gs fuel with
    | some o => exact ⟨o, rfl⟩
    | none =>
      exfalso
      obtain ⟨S, s1, s2, s3⟩ := topLoop_none _ _ _ _ hn (by simpa using hf) hr
      apply h
      refine recursive_of_closed s1 ?_ s3
      intro g hg
      rw [has_iff]
      cases hl : gs.lookup g with
      | some d => exact ⟨d, rfl⟩
      | none => rw [lookup_eq_none_iff] at hl; exact absurd (s2 g hg) hl
  · intro h fuel
    obtain ⟨S, s1, s2, s3⟩ := closed_of_recursive h
    exact topLoop_none_of_closed _ S s1 s3 fuel _ _ hn s2

private theorem sublist_of_before {l : List String} {a b : String} (hn : l.Nodup) (hne : a ≠ b)
    (ha : a ∈ l) (hb : b ∈ l) (h : ¬ [b, a].Sublist l) : [a, b].Sublist l := by
  obtain ⟨l1, l2, rfl⟩ := List.append_of_mem ha
  have hb' : b ∈ l1 ∨ b ∈ l2 := by
    simp only [List.mem_append, List.mem_cons] at hb
    rcases hb with hb | hb | hb
    · exact Or.inl hb
    · exact absurd hb.symm hne
    · exact Or.inr hb
  rcases hb' with hb | hb
  · exfalso
    apply h
    exact (List.singleton_sublist.2 hb).append
      (List.singleton_sublist.2 (by simp : a ∈ a :: l2))
  · exact List.Sublist.trans ((List.singleton_sublist.2 hb).cons_cons a) (List.sublist_append_right _ _)

/-- **C14 (inner groups first).**  The sorted list of groups contains every group once, and a
group nested (at any depth) in another group precedes it. -/
theorem C14_inner_groups_first (gs : Groups) (hn : (gs.map (·.1)).Nodup) (fuel : Nat)
    (order : List String) (h : reverseTopsort gs fuel = some order) :
    order.Perm (gs.map (·.1)) ∧
    ∀ outer inner, Relation.TransGen (SubGroup gs) outer inner → [inner, outer].Sublist order := by
  obtain ⟨tail, e1, e2, e3, e4⟩ := topLoop_some _ _ _ _ _ hn h
  simp only [List.nil_append] at e1
  subst e1
  refine ⟨e2, ?_⟩
  have hno : order.Nodup := e2.nodup_iff.2 hn
  have hmem : ∀ x, gs.has x = true → x ∈ order := fun x hx => e2.mem_iff.2 (lookup_mem_keys hx)
  have hhas1 : ∀ {a b}, SubGroup gs a b → gs.has a = true := by
    rintro a b ⟨d, _, hd, -⟩
    exact has_iff.2 ⟨d, hd⟩
  have hstep : ∀ a b, SubGroup gs a b → [b, a].Sublist order := by
    intro a b hab
    obtain ⟨hm, hb⟩ := subGroup_iff.1 hab
    have hne : a ≠ b := by
      rintro rfl
      exact e3 a (hmem a hb) hm
    apply sublist_of_before hno (Ne.symm hne) (hmem b hb) (hmem a (hhas1 hab))
    intro hs
    have := e4.sublist hs
    rw [List.pairwise_cons] at this
    exact this.1 b (by simp) hm
  have hidx : ∀ {a b : String}, [a, b].Sublist order → order.idxOf a < order.idxOf b := by
    intro a b hs
    obtain ⟨r₁, r₂, he, ha, hbr⟩ := List.cons_sublist_iff.1 hs
    have hbr : b ∈ r₂ := List.singleton_sublist.1 hbr
    subst he
    rw [List.nodup_append] at hno
    have hbn : b ∉ r₁ := fun hb1 => hno.2.2 b hb1 b hbr rfl
    rw [List.idxOf_append_of_notMem hbn, List.idxOf_append_of_mem ha]
    have := List.idxOf_lt_length_iff.2 ha
    omega
  have hlt : ∀ a b, Relation.TransGen (SubGroup gs) a b → order.idxOf b < order.idxOf a := by
    intro a b hab
    induction hab with
    | single h => exact hidx (hstep _ _ h)
    | tail _ h ih => exact Nat.lt_trans (hidx (hstep _ _ h)) ih
  intro outer inner ht
  have hin : inner ∈ order := by
    obtain ⟨b, -, hb⟩ := Relation.TransGen.tail'_iff.1 ht
    exact hmem _ (subGroup_iff.1 hb).2
  have hout : outer ∈ order := by
    obtain ⟨b, hb, -⟩ := Relation.TransGen.head'_iff.1 ht
    exact hmem _ (hhas1 hb)
  have hlt' := hlt _ _ ht
  apply sublist_of_before hno (by rintro rfl; omega) hin hout
  intro hs
  have := hidx hs
  omega

private theorem groupMembers_mem (gs : Groups) (objs : List String) (gtype : String) :
    ∀ (fuel : Nat) (g : String) (l : List String), groupMembers gs objs gtype fuel g = some l →
      ∀ n, n ∈ l ↔ n ∈ objs ∧ InGroup gs gtype g n := by
  intro fuel
  induction fuel with
  | zero =>
    intro g l h n
    unfold groupMembers at h
    cases hl : gs.lookup g with
    | none =>
      simp only [hl, Option.some.injEq] at h
      subst h
      simp only [List.not_mem_nil, false_iff, not_and]
      intro _ hi
      cases hi with
      | direct h1 => rw [hl] at h1; cases h1
      | nested h1 => rw [hl] at h1; cases h1
    | some d => simp [hl] at h
  | succ fuel ih =>
    intro g l h n
    unfold groupMembers at h
    cases hl : gs.lookup g with
    | none =>
      simp only [hl, Option.some.injEq] at h
      subst h
      simp only [List.not_mem_nil, false_iff, not_and]
      intro _ hi
      cases hi with
      | direct h1 => rw [hl] at h1; cases h1
      | nested h1 => rw [hl] at h1; cases h1
    | some d =>
      simp only [hl] at h
      by_cases ht : d.gtype = gtype
      · rw [if_neg (by simpa using ht)] at h
        obtain ⟨a1, a2⟩ := memberLoop_some h
        rw [a2 n]
        constructor
        · rintro ⟨m, hm, (⟨rfl, ho⟩ | ⟨hg, sub, hs, hn⟩)⟩
          · exact ⟨ho, .direct hl ht hm⟩
          · obtain ⟨b1, b2⟩ := (ih m sub hs n).1 hn
            exact ⟨b1, .nested hl ht hm b2⟩
        · rintro ⟨ho, hi⟩
          cases hi with
          | direct h1 _ h3 =>
            rw [hl] at h1; cases h1
            exact ⟨n, h3, Or.inl ⟨rfl, ho⟩⟩
          | @nested _ _ m _ h1 _ h3 h4 =>
            rw [hl] at h1; cases h1
            have hg : gs.has m = true := by
              cases h4 with
              | direct h => exact has_iff.2 ⟨_, h⟩
              | nested h => exact has_iff.2 ⟨_, h⟩
            obtain ⟨sub, hs⟩ := a1 m h3 hg
            exact ⟨m, h3, Or.inr ⟨hg, sub, hs, (ih m sub hs n).2 ⟨ho, h4⟩⟩⟩
      · rw [if_pos (by simpa using ht)] at h
        cases h
        simp only [List.not_mem_nil, false_iff, not_and]
        intro _ hi
        cases hi with
        | direct h1 h2 => rw [hl] at h1; cases h1; exact ht h2
        | nested h1 h2 => rw [hl] at h1; cases h1; exact ht h2

/-- **C14 (membership).**  The expanded list of group members contains exactly the existing
objects reachable through the group hierarchy. -/
theorem C14_members_exact (gs : Groups) (objs : List String) (gtype g : String) (l : List String)
    (h : groupMembers gs objs gtype 100 g = some l) (n : String) :
    n ∈ l ↔ n ∈ objs ∧ InGroup gs gtype g n :=
  groupMembers_mem gs objs gtype 100 g l h n

private theorem groupMembers_none (gs : Groups) (objs : List String) (gtype : String)
    (hr : ¬ Recursive gs) :
    ∀ (fuel : Nat) (g : String) (chain : List String), gs.has g = true →
      (∀ x ∈ chain, gs.has x = true ∧ Relation.TransGen (SubGroup gs) x g) → chain.Nodup →
      groupMembers gs objs gtype fuel g = none → fuel + chain.length < gs.length := by
  intro fuel
  induction fuel with
  | zero =>
    intro g chain hg hc hn _
    have hgn : g ∉ chain := fun h => hr ⟨g, (hc g h).2⟩
    have := chain_length_le (gs := gs) (chain := g :: chain) (List.nodup_cons.2 ⟨hgn, hn⟩) (by
      intro x hx
      rcases List.mem_cons.1 hx with rfl | hx
      · exact hg
      · exact (hc x hx).1)
    simp only [List.length_cons] at this
    omega
  | succ fuel ih =>
    intro g chain hg hc hn h
    obtain ⟨d, hd⟩ := has_iff.1 hg
    unfold groupMembers at h
    simp only [hd] at h
    split at h
    · simp at h
    · obtain ⟨m, hm, hgm, hf⟩ := memberLoop_none h
      have hs : SubGroup gs g m := subGroup_iff.2 ⟨mem_members.2 ⟨d, hd, hm⟩, hgm⟩
      have := ih m (g :: chain) hgm (by
        intro x hx
        rcases List.mem_cons.1 hx with rfl | hx
        · exact ⟨hg, .single hs⟩
        · exact ⟨(hc x hx).1, .tail (hc x hx).2 hs⟩)
        (List.nodup_cons.2 ⟨fun h => hr ⟨g, (hc g h).2⟩, hn⟩) hf
      simp only [List.length_cons] at this
      omega

/-- **C14 (expansion succeeds).**  In a topology without recursive groups and with at most one
hundred groups the expansion of members always succeeds. -/
theorem C14_expansion_succeeds (gs : Groups) (objs : List String) (gtype g : String)
    (hr : ¬ Recursive gs) (hl : gs.length ≤ 100) :
    ∃ l, groupMembers gs objs gtype 100 g = some l := by
  cases h : groupMembers gs objs gtype 100 g with
  | some l => exact ⟨l, rfl⟩
  | none =>
    exfalso
    by_cases hg : gs.has g = true
    · have := groupMembers_none gs objs gtype hr 100 g [] hg (by simp) (by simp) h
      simp at this
      omega
    · have : gs.lookup g = none := by
        cases hx : gs.lookup g with
        | none => rfl
        | some d => exact absurd (has_iff.2 ⟨d, hx⟩) hg
      unfold groupMembers at h
      simp [this] at h

private theorem groupMembers_levels (gs : Groups) (objs : List String) (gtype : String) :
    ∀ (fuel : Nat) (g : String), groupMembers gs objs gtype fuel g = none ↔ Levels gs gtype fuel g := by
  intro fuel
  induction fuel with
  | zero =>
    intro g
    unfold groupMembers
    cases hl : gs.lookup g with
    | none =>
      simp only [reduceCtorEq, false_iff]
      rintro ⟨h⟩
      rw [hl] at h; cases h
    | some d => simp only [true_iff]; exact .zero hl
  | succ fuel ih =>
    intro g
    unfold groupMembers
    cases hl : gs.lookup g with
    | none =>
      simp only [reduceCtorEq, false_iff]
      intro h
      cases h with
      | succ h => rw [hl] at h; cases h
    | some d =>
      simp only
      by_cases ht : d.gtype = gtype
      · rw [if_neg (by simpa using ht)]
        constructor
        · intro h
          obtain ⟨m, hm, -, hf⟩ := memberLoop_none h
          exact .succ hl ht hm ((ih m).1 hf)
        · intro h
          cases h with
          | @succ _ _ d' m h1 h2 h3 h4 =>
            rw [hl] at h1
            cases h1
            cases hx : memberLoop gs objs (groupMembers gs objs gtype fuel) d.members with
            | none => rfl
            | some l =>
              have hg : gs.has m = true := by
                cases h4 with
                | zero h => exact has_iff.2 ⟨_, h⟩
                | succ h => exact has_iff.2 ⟨_, h⟩
              obtain ⟨sub, hs⟩ := (memberLoop_some hx).1 m h3 hg
              rw [(ih m).2 h4] at hs
              cases hs
      · rw [if_pos (by simpa using ht)]
        simp only [reduceCtorEq, false_iff]
        intro h
        cases h with
        | succ h1 h2 => rw [hl] at h1; cases h1; exact ht h2

/-- **C14 (aborted expansion).**  The expansion of a group is aborted if and only if there are at least one hundred
levels of groups below it. -/
theorem C14_aborted_iff (gs : Groups) (objs : List String) (gtype g : String) :
    groupMembers gs objs gtype 100 g = none ↔ Levels gs gtype 100 g :=
  groupMembers_levels gs objs gtype 100 g

theorem way_cons {gs : Groups} {gtype g n : String} {p : List Nat} (h : Way gs gtype g n p) :
    p ≠ [] ∧ gs.has g = true := by
  cases h with
  | direct h => exact ⟨by simp, has_iff.2 ⟨_, h⟩⟩
  | nested h => exact ⟨by simp, has_iff.2 ⟨_, h⟩⟩

/-- The expanded list is the list of all ways, in order. -/
theorem memberLoop_ways {gs : Groups} {gtype : String} {objs : List String} {f : String → Option (List String)}
    (hf : ∀ m sub, f m = some sub → ∃ W : List (List Nat × String), W.Nodup ∧ sub = W.map (·.2) ∧
      ∀ p n, (p, n) ∈ W ↔ n ∈ objs ∧ Way gs gtype m n p) :
    ∀ (ms l : List String) (k : Nat), memberLoop gs objs f ms = some l →
      ∃ W : List (List Nat × String), W.Nodup ∧ l = W.map (·.2) ∧
        ∀ p n, (p, n) ∈ W ↔ n ∈ objs ∧ ∃ i m q, p = (k + i) :: q ∧ ms[i]? = some m ∧
          ((q = [] ∧ n = m) ∨ Way gs gtype m n q) := by
  intro ms
  induction ms with
  | nil =>
    intro l k h
    cases h
    exact ⟨[], List.nodup_nil, rfl, by simp⟩
  | cons m ms ih =>
    intro l k h
    unfold memberLoop at h
    obtain ⟨sub, hsub, W1, hn1, he1, hw1⟩ : ∃ sub, (if gs.has m then f m else some []) = some sub ∧
        ∃ W : List (List Nat × String), W.Nodup ∧ sub = W.map (·.2) ∧
          ∀ p n, (p, n) ∈ W ↔ n ∈ objs ∧ Way gs gtype m n p := by
      by_cases hg : gs.has m = true
      · rw [if_pos hg] at h ⊢
        cases hm : f m with
        | none => simp [hm] at h
        | some sub => exact ⟨sub, rfl, hf m sub hm⟩
      · rw [if_neg hg]
        exact ⟨[], rfl, [], List.nodup_nil, rfl, fun p n => by
          simp only [List.not_mem_nil, false_iff]
          exact fun h => hg (way_cons h.2).2⟩
    rw [hsub] at h
    simp only at h
    cases hr : memberLoop gs objs f ms with
    | none => simp [hr] at h
    | some rest =>
      simp only [hr, Option.some.injEq] at h
      subst h
      obtain ⟨W2, hn2, he2, hw2⟩ := ih rest (k + 1) hr
      have hA : ∀ p n, (p, n) ∈ (if objs.contains m then [([k], m)] else []) ↔
          n ∈ objs ∧ p = [k] ∧ n = m := by
        intro p n
        by_cases hc : m ∈ objs
        · rw [if_pos (by simpa using hc)]
          simp only [List.mem_singleton, Prod.mk.injEq]
          constructor
          · rintro ⟨rfl, rfl⟩; exact ⟨hc, rfl, rfl⟩
          · rintro ⟨-, rfl, rfl⟩; exact ⟨rfl, rfl⟩
        · rw [if_neg (by simpa using hc)]
          simp only [List.not_mem_nil, false_iff]
          rintro ⟨h1, -, rfl⟩
          exact hc h1
      have hB : ∀ p n, (p, n) ∈ W1.map (fun x => (k :: x.1, x.2)) ↔
          n ∈ objs ∧ ∃ q, p = k :: q ∧ Way gs gtype m n q := by
        intro p n
        simp only [List.mem_map, Prod.exists, Prod.mk.injEq]
        constructor
        · rintro ⟨q, n', hx, rfl, rfl⟩
          exact ⟨((hw1 _ _).1 hx).1, q, rfl, ((hw1 _ _).1 hx).2⟩
        · rintro ⟨h1, q, rfl, h2⟩
          exact ⟨q, n, (hw1 _ _).2 ⟨h1, h2⟩, rfl, rfl⟩
      refine ⟨(if objs.contains m then [([k], m)] else []) ++ W1.map (fun x => (k :: x.1, x.2)) ++ W2, ?_, ?_, ?_⟩
      · rw [List.nodup_append, List.nodup_append]
        refine ⟨⟨by split <;> simp, ?_, ?_⟩, hn2, ?_⟩
        · rw [List.nodup_iff_pairwise_ne, List.pairwise_map]
          rw [List.nodup_iff_pairwise_ne] at hn1
          refine hn1.imp ?_
          rintro ⟨a1, a2⟩ ⟨b1, b2⟩ hab h
          simp only [Prod.mk.injEq, List.cons.injEq, true_and] at h
          exact hab (by rw [h.1, h.2])
        · rintro ⟨p, n⟩ hp ⟨p', n'⟩ hp' e
          cases e
          obtain ⟨-, rfl, rfl⟩ := (hA _ _).1 hp
          obtain ⟨-, q, hq, hw⟩ := (hB _ _).1 hp'
          simp only [List.cons.injEq, true_and] at hq
          exact (way_cons hw).1 hq.symm
        · rintro ⟨p, n⟩ hp ⟨p', n'⟩ hp' e
          cases e
          obtain ⟨-, i, m', q, e1, -⟩ := (hw2 _ _).1 hp'
          rcases List.mem_append.1 hp with hp | hp
          · obtain ⟨-, rfl, -⟩ := (hA _ _).1 hp
            simp only [List.cons.injEq] at e1
            omega
          · obtain ⟨-, q', rfl, -⟩ := (hB _ _).1 hp
            simp only [List.cons.injEq] at e1
            omega
      · rw [he1, he2]
        simp only [List.map_append, List.map_map]
        congr 2
        split <;> rfl
      · intro p n
        rw [List.mem_append, List.mem_append, hA, hB, hw2]
        constructor
        · rintro ((⟨h1, rfl, rfl⟩ | ⟨h1, q, rfl, h2⟩) | ⟨h1, i, m', q, rfl, h2, h3⟩)
          · exact ⟨h1, 0, n, [], rfl, rfl, .inl ⟨rfl, rfl⟩⟩
          · exact ⟨h1, 0, m, q, rfl, rfl, .inr h2⟩
          · exact ⟨h1, i + 1, m', q, by rw [Nat.add_right_comm, Nat.add_assoc], by simpa using h2, h3⟩
        · rintro ⟨h1, i, m', q, rfl, h2, h3⟩
          cases i with
          | zero =>
            simp only [List.getElem?_cons_zero, Option.some.injEq] at h2
            subst h2
            rcases h3 with ⟨rfl, rfl⟩ | h3
            · exact .inl (.inl ⟨h1, rfl, rfl⟩)
            · exact .inl (.inr ⟨h1, q, rfl, h3⟩)
          | succ i =>
            exact .inr ⟨h1, i, m', q, by rw [Nat.add_right_comm, Nat.add_assoc], by simpa using h2, h3⟩

theorem groupMembers_ways (gs : Groups) (objs : List String) (gtype : String) :
    ∀ (fuel : Nat) (g : String) (l : List String), groupMembers gs objs gtype fuel g = some l →
      ∃ W : List (List Nat × String), W.Nodup ∧ l = W.map (·.2) ∧
        ∀ p n, (p, n) ∈ W ↔ n ∈ objs ∧ Way gs gtype g n p := by
  intro fuel
  induction fuel with
  | zero =>
    intro g l h
    unfold groupMembers at h
    cases hl : gs.lookup g with
    | none =>
      simp only [hl, Option.some.injEq] at h
      refine ⟨[], List.nodup_nil, h.symm, fun p n => ?_⟩
      simp only [List.not_mem_nil, false_iff]
      intro hw
      obtain ⟨d, hd⟩ := has_iff.1 (way_cons hw.2).2
      rw [hl] at hd; cases hd
    | some d => simp [hl] at h
  | succ fuel ih =>
    intro g l h
    unfold groupMembers at h
    cases hl : gs.lookup g with
    | none =>
      simp only [hl, Option.some.injEq] at h
      refine ⟨[], List.nodup_nil, h.symm, fun p n => ?_⟩
      simp only [List.not_mem_nil, false_iff]
      intro hw
      obtain ⟨d, hd⟩ := has_iff.1 (way_cons hw.2).2
      rw [hl] at hd; cases hd
    | some d =>
      simp only [hl] at h
      by_cases ht : d.gtype = gtype
      · rw [if_neg (by simpa using ht)] at h
        obtain ⟨W, h1, h2, h3⟩ := memberLoop_ways ih d.members l 0 h
        refine ⟨W, h1, h2, fun p n => ?_⟩
        rw [h3]
        constructor
        · rintro ⟨ho, i, m, q, rfl, hm, ⟨rfl, rfl⟩ | hw⟩
          · exact ⟨ho, .direct hl ht (by simpa using hm)⟩
          · exact ⟨ho, .nested hl ht (by simpa using hm) hw⟩
        · rintro ⟨ho, hw⟩
          cases hw with
          | @direct _ d' _ i e1 e2 e3 =>
            rw [hl] at e1; cases e1
            exact ⟨ho, i, n, [], by simp, e3, .inl ⟨rfl, rfl⟩⟩
          | @nested _ d' m _ i q e1 e2 e3 e4 =>
            rw [hl] at e1; cases e1
            exact ⟨ho, i, m, q, by simp, e3, .inr e4⟩
      · rw [if_pos (by simpa using ht)] at h
        cases h
        refine ⟨[], List.nodup_nil, rfl, fun p n => ?_⟩
        simp only [List.not_mem_nil, false_iff]
        rintro ⟨-, hw⟩
        cases hw with
        | direct e1 e2 => rw [hl] at e1; cases e1; exact ht e2
        | nested e1 e2 => rw [hl] at e1; cases e1; exact ht e2

/-- **C14 (repeated members).**  The expanded list contains an object twice if and only if the group reaches an object
in two ways. -/
theorem C14_repeated_iff (gs : Groups) (objs : List String) (gtype g : String) (l : List String)
    (h : groupMembers gs objs gtype 100 g = some l) : ¬ l.Nodup ↔ TwoWays gs gtype objs g := by
  obtain ⟨W, h1, rfl, h3⟩ := groupMembers_ways gs objs gtype 100 g l h
  constructor
  · intro hn
    apply Classical.byContradiction
    intro hno
    apply hn
    rw [List.nodup_iff_pairwise_ne, List.pairwise_map]
    rw [List.nodup_iff_pairwise_ne] at h1
    refine h1.imp_of_mem ?_
    rintro ⟨p, n⟩ ⟨q, m⟩ hp hq hne e
    simp only at e
    subst e
    exact hno ⟨n, ((h3 _ _).1 hp).1, p, q, fun e => hne (by rw [e]), ((h3 _ _).1 hp).2, ((h3 _ _).1 hq).2⟩
  · rintro ⟨n, ho, p, q, hpq, hp, hq⟩ hnd
    have hmem : ∀ {x y : List Nat × String}, x ∈ W → y ∈ W → x.2 = y.2 → x = y := by
      intro x y hx hy e
      rw [List.nodup_iff_pairwise_ne, List.pairwise_map] at hnd
      obtain ⟨i, hi, rfl⟩ := List.getElem_of_mem hx
      obtain ⟨j, hj, rfl⟩ := List.getElem_of_mem hy
      rw [List.pairwise_iff_getElem] at hnd
      rcases Nat.lt_trichotomy i j with h | h | h
      · exact absurd e (hnd i j hi hj h)
      · subst h; rfl
      · exact absurd e.symm (hnd j i hj hi h)
    have := hmem ((h3 p n).2 ⟨ho, hp⟩) ((h3 q n).2 ⟨ho, hq⟩) rfl
    exact hpq (congrArg Prod.fst this)

/-- Non-vacuity: two groups with a common node in a third group -/
example : groupMembers [("all", { members := ["a", "b"] }), ("a", { members := ["r1", "r2"] }),
    ("b", { members := ["r2"] })] ["r1", "r2"] "node" 100 "all" = some ["r1", "r2", "r2"] := by
  decide +kernel

/-- A chain of nested groups g0 ⊃ g1 ⊃ ... ⊃ g100 with one node in the innermost group -/
def deepGroups : Groups :=
  (List.range 101).map (fun k => (s!"g{k}", { members := [if k = 100 then "r1" else s!"g{k+1}"] }))

/-- **C14 (finding).**  A hierarchy of 101 nested groups passes the check for recursive groups,
and yet the expansion of its outermost group is aborted as a "recursive group definition". -/
theorem C14_deep_hierarchy_aborted :
    ¬ Recursive deepGroups ∧ groupMembers deepGroups ["r1"] "node" 100 "g0" = none := by
  refine ⟨?_, by decide +kernel⟩
  -- the position of the group in the list is larger than the position of its parent
  have hall : ∀ p ∈ deepGroups, ∀ m ∈ p.2.members, deepGroups.has m = true →
      (deepGroups.map (·.1)).idxOf p.1 < (deepGroups.map (·.1)).idxOf m := by decide +kernel
  have hlt : ∀ a b, Relation.TransGen (SubGroup deepGroups) a b →
      (deepGroups.map (·.1)).idxOf a < (deepGroups.map (·.1)).idxOf b := by
    have step : ∀ a b, SubGroup deepGroups a b →
        (deepGroups.map (·.1)).idxOf a < (deepGroups.map (·.1)).idxOf b := by
      rintro a b ⟨d, e, h1, h2, h3⟩
      exact hall (a, d) (mem_of_lookup h1) b h2 (has_iff.2 ⟨e, h3⟩)
    intro a b h
    induction h with
    | single h => exact step _ _ h
    | tail _ h ih => exact Nat.lt_trans ih (step _ _ h)
  rintro ⟨g, hg⟩
  exact Nat.lt_irrefl _ (hlt g g hg)

private def exGroups : Groups :=
  [("all_routers", { members := ["pe", "p1"] }), ("pe", { members := ["r1", "r2"] })]

example : ¬ Recursive exGroups ∧ reverseTopsort exGroups 2 = some ["pe", "all_routers"] ∧
    groupMembers exGroups ["r1", "r2", "p1"] "node" 100 "all_routers" = some ["r1", "r2", "p1"] := by
  refine ⟨?_, ?_, by decide +kernel⟩
  · rw [← C14_rejected_iff_recursive]; decide +kernel
  · have h : "all_routers" ≤ "pe" := by decide
    simp [reverseTopsort, topLoop, topRound, exGroups, List.mergeSort,
      List.MergeSort.Internal.splitInTwo, Groups.members, List.lookup, h]
example : Recursive [("a", { members := ["b"] }), ("b", { members := ["r1", "a"] })] := by
  rw [← C14_rejected_iff_recursive]; decide +kernel

end Netlab
