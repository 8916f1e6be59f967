import Verif.Spec.Groups
import Verif.Lemmas.Assoc
import Verif.Lemmas.Util
import Mathlib.Data.Fintype.Card
import Mathlib.Data.List.Perm.Subperm
import Mathlib.Data.Set.Finite.List
/-!
# Lemmas on groups
-/

namespace Netlab
open Spec

theorem has_iff {gs : Groups} {g : String} : gs.has g = true ↔ ∃ d, gs.lookup g = some d := by
  unfold Groups.has
  exact Option.isSome_iff_exists

theorem mem_members {gs : Groups} {g m : String} :
    m ∈ gs.members g ↔ ∃ d, gs.lookup g = some d ∧ m ∈ d.members := by
  unfold Groups.members
  cases gs.lookup g <;> simp

theorem subGroup_iff {gs : Groups} {a b : String} :
    SubGroup gs a b ↔ b ∈ gs.members a ∧ gs.has b = true := by
  rw [mem_members, has_iff]
  constructor
  · rintro ⟨d, e, h1, h2, h3⟩; exact ⟨⟨d, h1, h2⟩, e, h3⟩
  · rintro ⟨⟨d, h1, h2⟩, e, h3⟩; exact ⟨d, e, h1, h2, h3⟩

theorem lookup_mem_keys {gs : Groups} {g : String} (h : gs.has g = true) :
    g ∈ gs.map (·.1) := by
  obtain ⟨d, hd⟩ := has_iff.1 h
  exact List.mem_map.2 ⟨_, mem_of_lookup hd, rfl⟩

/-! ### Recursive chains -/

theorem chainLoop_false {gs : Groups} {chain : List String} {f : String → Bool}
    {ms : List String} (h : chainLoop gs chain f ms = false) :
    ∀ m ∈ ms, m ∉ chain ∧ (gs.has m = true → f m = false) := by
  induction ms with
  | nil => simp
  | cons x ms ih =>
    unfold chainLoop at h
    by_cases h1 : chain.contains x = true
    · rw [if_pos h1] at h; simp at h
    · rw [if_neg h1] at h
      by_cases h2 : (gs.has x && f x) = true
      · rw [if_pos h2] at h; simp at h
      · rw [if_neg h2] at h
        intro m hm
        rcases List.mem_cons.1 hm with rfl | hm
        · refine ⟨by simpa using h1, fun hg => ?_⟩
          simpa [hg] using h2
        · exact ih h m hm

theorem chainLoop_true {gs : Groups} {chain : List String} {f : String → Bool}
    {ms : List String} (h : chainLoop gs chain f ms = true) :
    ∃ m ∈ ms, m ∈ chain ∨ (gs.has m = true ∧ f m = true) := by
  induction ms with
  | nil => simp [chainLoop] at h
  | cons x ms ih =>
    unfold chainLoop at h
    by_cases h1 : chain.contains x = true
    · exact ⟨x, by simp, Or.inl (by simpa using h1)⟩
    · rw [if_neg h1] at h
      by_cases h2 : (gs.has x && f x) = true
      · exact ⟨x, by simp, Or.inr (by simpa using h2)⟩
      · rw [if_neg h2] at h
        obtain ⟨m, hm, h⟩ := ih h
        exact ⟨m, by simp [hm], h⟩

theorem checkChain_true {gs : Groups} : ∀ (fuel : Nat) (chain : List String) (g : String),
    (∀ x ∈ chain, Relation.TransGen (SubGroup gs) x g) → (∀ x ∈ chain, gs.has x = true) →
    gs.has g = true → checkChain gs fuel chain g = true → Recursive gs := by
  intro fuel
  induction fuel with
  | zero => intro chain g _ _ _ h; simp [checkChain] at h
  | succ fuel ih =>
    intro chain g hc hh hg h
    unfold checkChain at h
    obtain ⟨m, hm, hcase⟩ := chainLoop_true h
    have key : m ∈ chain ++ [g] → Recursive gs := by
      intro hm2
      rcases List.mem_append.1 hm2 with h2 | h2
      · exact ⟨m, .tail (hc m h2) (subGroup_iff.2 ⟨hm, hh m h2⟩)⟩
      · have : m = g := by simpa using h2
        subst this
        exact ⟨m, .single (subGroup_iff.2 ⟨hm, hg⟩)⟩
    rcases hcase with h1 | ⟨h1, h2⟩
    · exact key h1
    · have hs : SubGroup gs g m := subGroup_iff.2 ⟨hm, h1⟩
      refine ih (chain ++ [g]) m ?_ ?_ h1 h2
      · intro x hx
        rcases List.mem_append.1 hx with hx | hx
        · exact .tail (hc x hx) hs
        · have : x = g := by simpa using hx
          subst this
          exact .single hs
      · intro x hx
        rcases List.mem_append.1 hx with hx | hx
        · exact hh x hx
        · have : x = g := by simpa using hx
          subst this; exact hg

theorem chain_length_le {gs : Groups} {chain : List String} (hn : chain.Nodup)
    (hh : ∀ x ∈ chain, gs.has x = true) : chain.length ≤ gs.length := by
  have : chain.Subperm (gs.map (·.1)) := hn.subperm (fun x hx => lookup_mem_keys (hh x hx))
  simpa using this.length_le

theorem checkChain_false {gs : Groups} {g c : String} (hp : Relation.TransGen (SubGroup gs) g c) :
    ∀ (fuel : Nat) (chain : List String), (chain ++ [g]).Nodup →
      (∀ x ∈ chain, gs.has x = true) → gs.has g = true → gs.length + 1 ≤ fuel + chain.length →
      checkChain gs fuel chain g = false → c ∉ chain ++ [g] := by
  induction hp using Relation.TransGen.head_induction_on with
  | single hs =>
    intro fuel chain hn hh hg hf h
    rename_i a
    have hl := chain_length_le hn (by
      intro x hx
      rcases List.mem_append.1 hx with hx | hx
      · exact hh x hx
      · have : x = a := by simpa using hx
        subst this; exact hg)
    simp only [List.length_append, List.length_singleton] at hl
    obtain ⟨f, rfl⟩ : ∃ f, fuel = f + 1 := ⟨fuel - 1, by omega⟩
    unfold checkChain at h
    exact (chainLoop_false h c (subGroup_iff.1 hs).1).1
  | head hs _ ih =>
    intro fuel chain hn hh hg hf h
    rename_i a b _
    have hh' : ∀ x ∈ chain ++ [a], gs.has x = true := by
      intro x hx
      rcases List.mem_append.1 hx with hx | hx
      · exact hh x hx
      · have : x = a := by simpa using hx
        subst this; exact hg
    have hl := chain_length_le hn hh'
    simp only [List.length_append, List.length_singleton] at hl
    obtain ⟨f, rfl⟩ : ∃ f, fuel = f + 1 := ⟨fuel - 1, by omega⟩
    unfold checkChain at h
    obtain ⟨h1, h2⟩ := subGroup_iff.1 hs
    obtain ⟨h3, h4⟩ := chainLoop_false h b h1
    have := ih f (chain ++ [a]) (by
      rw [List.nodup_append]
      refine ⟨hn, by simp, ?_⟩
      intro x hx y hy hxy
      have : y = b := by simpa using hy
      subst this; subst hxy
      exact h3 hx) hh' h2 (by simp; omega) (h4 h2)
    intro hc
    exact this (List.mem_append_left _ hc)

/-! ### Topological sort -/

theorem topRound_spec (members : String → List String) : ∀ (todo rem out : List String),
    todo.Nodup →
    ∃ new, (topRound members todo rem out).2 = out ++ new ∧
      (topRound members todo rem out).1 = rem.filter (fun g => !new.contains g) ∧
      new.Sublist todo ∧
      new.Pairwise (fun a b => b ∈ rem → b ∉ members a) ∧
      (∀ g ∈ new, ∀ m ∈ members g, m ∉ rem.filter (fun g => !new.contains g)) ∧
      (∀ g ∈ new, g ∈ rem → g ∉ members g) ∧
      (∀ g ∈ todo, (∀ m ∈ members g, m ∉ rem) → g ∈ new) := by
  intro todo
  induction todo with
  | nil =>
    intro rem out _
    refine ⟨[], by simp [topRound], by simp [topRound], by simp, .nil, by simp, by simp, by simp⟩
  | cons g todo ih =>
    intro rem out hn
    rw [List.nodup_cons] at hn
    unfold topRound
    split
    · rename_i hany
      obtain ⟨new, h1, h2, h3, h5, h6, h7, h8⟩ := ih rem out hn.2
      refine ⟨new, h1, h2, h3.cons _, h5, h6, h7, ?_⟩
      intro x hx hfree
      rcases List.mem_cons.1 hx with rfl | hx
      · obtain ⟨m, hm, hm2⟩ := List.any_eq_true.1 hany
        exact absurd (by simpa using hm2) (hfree m hm)
      · exact h8 x hx hfree
    · rename_i hany
      obtain ⟨new, h1, h2, h3, h5, h6, h7, h8⟩ := ih (rem.filter (· != g)) (out ++ [g]) hn.2
      have hfree : ∀ m ∈ members g, m ∉ rem := by
        intro m hm hr
        exact hany (List.any_eq_true.2 ⟨m, hm, by simpa using hr⟩)
      have hfil : (rem.filter (· != g)).filter (fun x => !new.contains x) =
          rem.filter (fun x => !(g :: new).contains x) := by
        rw [List.filter_filter]
        apply List.filter_congr
        intro x _
        simp only [List.contains_cons, Bool.not_or]
        rw [Bool.and_comm]
        rfl
      have hne : ∀ x ∈ new, x ≠ g := by
        rintro x hx rfl
        exact hn.1 (h3.subset hx)
      refine ⟨g :: new, by simp [h1], by rw [h2, hfil], h3.cons_cons _, ?_, ?_, ?_, ?_⟩
      · rw [List.pairwise_cons]
        refine ⟨fun b _ hb hm => hfree b hm hb, ?_⟩
        refine h5.imp_of_mem ?_
        intro a b ha hb hab hbr hm
        exact hab (by simp [hbr, hne b hb]) hm
      · intro x hx m hm hmr
        rw [← hfil] at hmr
        rcases List.mem_cons.1 hx with rfl | hx
        · exact hfree m hm (List.mem_filter.1 (List.mem_filter.1 hmr).1).1
        · exact h6 x hx m hm hmr
      · intro x hx hxr
        rcases List.mem_cons.1 hx with rfl | hx
        · exact fun hm => hfree x hm hxr
        · exact h7 x hx (by simp [hxr, hne x hx])
      · intro x hx hf
        rcases List.mem_cons.1 hx with rfl | hx
        · simp
        · refine List.mem_cons_of_mem _ (h8 x hx ?_)
          intro m hm hmr
          exact hf m hm (List.mem_filter.1 hmr).1

theorem sortedKeys_perm (l : List String) :
    (l.mergeSort (fun a b => decide (a ≤ b))).Perm l := List.mergeSort_perm _ _

theorem topLoop_some (members : String → List String) : ∀ (fuel : Nat) (rem out res : List String),
    rem.Nodup → topLoop members fuel rem out = some res →
    ∃ tail, res = out ++ tail ∧ tail.Perm rem ∧ (∀ g ∈ tail, g ∉ members g) ∧
      tail.Pairwise (fun a b => b ∉ members a) := by
  intro fuel
  induction fuel with
  | zero =>
    intro rem out res hn h
    unfold topLoop at h
    split at h
    · rename_i he
      cases h
      rw [List.isEmpty_iff] at he
      subst he
      exact ⟨[], by simp, .refl _, by simp, .nil⟩
    · simp at h
  | succ fuel ih =>
    intro rem out res hn h
    unfold topLoop at h
    split at h
    · rename_i he
      cases h
      rw [List.isEmpty_iff] at he
      subst he
      exact ⟨[], by simp, .refl _, by simp, .nil⟩
    · have hp := sortedKeys_perm rem
      obtain ⟨new, h1, h2, h3, h5, h6, h7, -⟩ := topRound_spec members
        (rem.mergeSort (fun a b => decide (a ≤ b))) rem out (hp.nodup_iff.2 hn)
      simp only [h1, h2] at h
      obtain ⟨tail, rfl, e2, e3, e4⟩ := ih _ _ _ (hn.filter _) h
      have hnew : ∀ x ∈ new, x ∈ rem := fun x hx => hp.mem_iff.1 (h3.subset hx)
      have hnn : new.Nodup := h3.nodup (hp.nodup_iff.2 hn)
      refine ⟨new ++ tail, by simp, ?_, ?_, ?_⟩
      · have a1 : (rem.filter (fun g => new.contains g)).Perm new := by
          rw [List.perm_ext_iff_of_nodup (hn.filter _) hnn]
          intro x
          simp only [List.mem_filter, List.contains_iff_mem]
          exact ⟨fun h => h.2, fun h => ⟨hnew x h, h⟩⟩
        have a2 := List.filter_append_perm (fun g => new.contains g) rem
        exact ((a1.symm.append_right tail).trans (e2.append_left _)).trans a2
      · intro g hg
        rcases List.mem_append.1 hg with hg | hg
        · exact h7 g hg (hnew g hg)
        · exact e3 g hg
      · rw [List.pairwise_append]
        refine ⟨h5.imp_of_mem (fun _ hb hab => hab (hnew _ hb)), e4, ?_⟩
        intro a ha b hb hm
        exact h6 a ha b hm (e2.mem_iff.1 hb)

/-- Sorting fails, whatever the number of passes, when some groups contain each other. -/
theorem topLoop_none_of_closed (members : String → List String) (S : List String) (hS : S ≠ [])
    (hcl : ∀ g ∈ S, ∃ m ∈ members g, m ∈ S) : ∀ (fuel : Nat) (rem out : List String),
    rem.Nodup → (∀ g ∈ S, g ∈ rem) → topLoop members fuel rem out = none := by
  have hne : ∀ rem : List String, (∀ m ∈ S, m ∈ rem) → rem.isEmpty = false := by
    intro rem h
    obtain ⟨m, hm⟩ := List.exists_mem_of_ne_nil S hS
    have := h m hm
    cases rem with
    | nil => simp at this
    | cons => rfl
  intro fuel
  induction fuel with
  | zero => intro rem out _ h; unfold topLoop; simp [hne rem h]
  | succ fuel ih =>
    intro rem out hn h
    unfold topLoop
    rw [hne rem h]
    simp only [Bool.false_eq_true, if_false]
    have hp := sortedKeys_perm rem
    obtain ⟨new, h1, h2, h3, h5, h6, h7, -⟩ := topRound_spec members
      (rem.mergeSort (fun a b => decide (a ≤ b))) rem out (hp.nodup_iff.2 hn)
    rw [h1, h2]
    apply ih _ _ (hn.filter _)
    -- a group of S that is removed first still has a member in S
    have key : ∀ (l r : List String), l ++ r = new → ∀ g ∈ l, g ∉ S := by
      intro l
      induction l using List.reverseRecOn with
      | nil => simp
      | append_singleton l x ihl =>
        intro r hr g hg hgS
        have hl := ihl (x :: r) (by simpa using hr)
        rcases List.mem_append.1 hg with hg | hg
        · exact hl g hg hgS
        · have : g = x := by simpa using hg
          subst this
          obtain ⟨m, hm, hmS⟩ := hcl g hgS
          have hmr := h m hmS
          by_cases hmn : m ∈ new
          · rw [← hr] at hmn h5
            rw [List.append_assoc, List.mem_append] at hmn
            rcases hmn with hmn | hmn
            · exact hl m hmn hmS
            · have hmn : m = g ∨ m ∈ r := by simpa using hmn
              rcases hmn with rfl | hmn
              · exact h7 m (by rw [← hr]; simp) hmr hm
              · rw [List.append_assoc, List.pairwise_append] at h5
                have h51 := h5.2.1
                simp only [List.singleton_append, List.pairwise_cons] at h51
                exact h51.1 m hmn hmr hm
          · exact h6 g (by rw [← hr]; simp) m hm (by simp [hmr, hmn])
    intro g hg
    refine List.mem_filter.2 ⟨h g hg, ?_⟩
    simpa using fun hgn => key new [] (by simp) g hgn hg

/-- If sorting is not done after as many passes as there are groups, some groups contain each
other. -/
theorem topLoop_none (members : String → List String) : ∀ (fuel : Nat) (rem out : List String),
    rem.Nodup → rem.length ≤ fuel → topLoop members fuel rem out = none →
    ∃ S, S ≠ [] ∧ (∀ g ∈ S, g ∈ rem) ∧ ∀ g ∈ S, ∃ m ∈ members g, m ∈ S := by
  intro fuel
  induction fuel with
  | zero =>
    intro rem out _ hl h
    unfold topLoop at h
    have : rem = [] := List.length_eq_zero_iff.1 (by omega)
    simp [this] at h
  | succ fuel ih =>
    intro rem out hn hl h
    unfold topLoop at h
    split at h
    · simp at h
    · rename_i hne
      have hp := sortedKeys_perm rem
      obtain ⟨new, h1, h2, h3, h5, h6, h7, h8⟩ := topRound_spec members
        (rem.mergeSort (fun a b => decide (a ≤ b))) rem out (hp.nodup_iff.2 hn)
      simp only [h1, h2] at h
      cases hnew : new with
      | nil =>
        refine ⟨rem, by rintro rfl; simp at hne, fun _ h => h, ?_⟩
        intro g hg
        by_contra hc
        have := h8 g (hp.mem_iff.2 hg) (fun m hm hmr => hc ⟨m, hm, hmr⟩)
        simp [hnew] at this
      | cons x new' =>
        have hx : x ∈ rem := hp.mem_iff.1 (h3.subset (by simp [hnew]))
        have hlt : (rem.filter (fun g => !new.contains g)).length < rem.length := by
          apply List.length_filter_lt_length_iff_exists.2
          exact ⟨x, hx, by simp [hnew]⟩
        obtain ⟨S, s1, s2, s3⟩ := ih _ _ (hn.filter _) (by omega) h
        exact ⟨S, s1, fun g hg => (List.mem_filter.1 (s2 g hg)).1, s3⟩

theorem recursive_of_closed {gs : Groups} {S : List String} (hS : S ≠ [])
    (hsub : ∀ g ∈ S, gs.has g = true) (hcl : ∀ g ∈ S, ∃ m ∈ gs.members g, m ∈ S) :
    Recursive gs := by
  by_contra hno
  let R : {m // m ∈ S} → {m // m ∈ S} → Prop := fun a b => SubGroup gs a.1 b.1
  have hfin : Finite {m // m ∈ S} := (List.finite_toSet S).to_subtype
  have lift : ∀ a b, Relation.TransGen R a b → Relation.TransGen (SubGroup gs) a.1 b.1 := by
    intro a b h
    induction h with
    | single h => exact .single h
    | tail _ h ih => exact .tail ih h
  have hirr' : Std.Irrefl (Function.swap (Relation.TransGen R)) :=
    ⟨fun a h => hno ⟨a.1, lift a a h⟩⟩
  have htr : IsTrans _ (Function.swap (Relation.TransGen R)) :=
    ⟨fun a b c h1 h2 => Relation.TransGen.trans h2 h1⟩
  have hwf := Finite.wellFounded_of_trans_of_irrefl (Function.swap (Relation.TransGen R))
  obtain ⟨m, hm⟩ := List.exists_mem_of_ne_nil S hS
  obtain ⟨⟨x, hx⟩, -, hmin⟩ := hwf.has_min Set.univ ⟨⟨m, hm⟩, trivial⟩
  obtain ⟨r, hr, hrS⟩ := hcl x hx
  exact hmin ⟨r, hrS⟩ trivial (.single (subGroup_iff.2 ⟨hr, hsub r hrS⟩))

theorem closed_of_recursive {gs : Groups} (h : Recursive gs) :
    ∃ S, S ≠ [] ∧ (∀ g ∈ S, g ∈ gs.map (·.1)) ∧ ∀ g ∈ S, ∃ m ∈ gs.members g, m ∈ S := by
  classical
  obtain ⟨g, hc⟩ := h
  have hmem : ∀ {a b}, SubGroup gs a b → b ∈ gs.map (·.1) :=
    fun h => lookup_mem_keys (subGroup_iff.1 h).2
  have hg : g ∈ gs.map (·.1) := by
    obtain ⟨b, -, hb⟩ := Relation.TransGen.tail'_iff.1 hc
    exact hmem hb
  refine ⟨(gs.map (·.1)).filter (fun x => decide (Relation.TransGen (SubGroup gs) x g)), ?_, ?_, ?_⟩
  · apply List.ne_nil_of_mem (a := g)
    exact List.mem_filter.2 ⟨hg, by simpa using hc⟩
  · intro x hx
    exact (List.mem_filter.1 hx).1
  · intro x hx
    obtain ⟨-, hxc⟩ := List.mem_filter.1 hx
    simp only [decide_eq_true_eq] at hxc
    obtain ⟨c, h1, h2⟩ := Relation.TransGen.head'_iff.1 hxc
    refine ⟨c, (subGroup_iff.1 h1).1, List.mem_filter.2 ⟨hmem h1, ?_⟩⟩
    simp only [decide_eq_true_eq]
    rcases Relation.reflTransGen_iff_eq_or_transGen.1 h2 with heq | ht
    · rw [← heq]; exact hc
    · exact ht

/-! ### Expansion of members -/

theorem memberLoop_some {gs : Groups} {objs : List String} {f : String → Option (List String)} :
    ∀ {ms l : List String}, memberLoop gs objs f ms = some l →
      (∀ m ∈ ms, gs.has m = true → ∃ sub, f m = some sub) ∧
      ∀ n, n ∈ l ↔ ∃ m ∈ ms, (n = m ∧ m ∈ objs) ∨ (gs.has m = true ∧ ∃ sub, f m = some sub ∧ n ∈ sub) := by
  intro ms
  induction ms with
  | nil =>
    intro l h
    simp only [memberLoop, Option.some.injEq] at h
    subst h
    simp
  | cons x ms ih =>
    intro l h
    unfold memberLoop at h
    split at h
    · simp at h
    · rename_i sub hsub
      split at h
      · simp at h
      · rename_i rest hrest
        simp only [Option.some.injEq] at h
        obtain ⟨a1, a2⟩ := ih hrest
        constructor
        · intro m hm hg
          rcases List.mem_cons.1 hm with rfl | hm
          · rw [if_pos hg] at hsub
            exact ⟨sub, hsub⟩
          · exact a1 m hm hg
        · intro n
          rw [← h]
          simp only [List.mem_append, a2 n, List.mem_cons, exists_eq_or_imp]
          constructor
          · rintro ((h | h) | h)
            · left; left
              split at h
              · rename_i ho
                have : n = x := by simpa using h
                subst this
                exact ⟨rfl, by simpa using ho⟩
              · simp at h
            · by_cases hg : gs.has x = true
              · rw [if_pos hg] at hsub
                exact Or.inl (Or.inr ⟨hg, sub, hsub, h⟩)
              · rw [if_neg hg] at hsub
                cases hsub
                simp at h
            · exact Or.inr h
          · rintro ((⟨rfl, ho⟩ | ⟨hg, s, hs, hn⟩) | h)
            · left; left
              rw [if_pos (by simpa using ho)]
              simp
            · rw [if_pos hg, hs] at hsub
              cases hsub
              exact Or.inl (Or.inr hn)
            · exact Or.inr h

theorem memberLoop_none {gs : Groups} {objs : List String} {f : String → Option (List String)} :
    ∀ {ms : List String}, memberLoop gs objs f ms = none → ∃ m ∈ ms, gs.has m = true ∧ f m = none := by
  intro ms
  induction ms with
  | nil => intro h; simp [memberLoop] at h
  | cons x ms ih =>
    intro h
    unfold memberLoop at h
    split at h
    · rename_i hsub
      split at hsub
      · rename_i hg
        exact ⟨x, by simp, hg, hsub⟩
      · simp at hsub
    · split at h
      · rename_i hrest
        obtain ⟨m, hm, h⟩ := ih hrest
        exact ⟨m, by simp [hm], h⟩
      · simp at h

end Netlab
