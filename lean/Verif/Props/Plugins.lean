import Verif.Spec.Plugins
import Verif.Props.Sort
import Mathlib.Data.List.Forall2
import Verif.Lemmas.Assoc
import Verif.Props.Inventory
/-!
# C106: plugins
-/

namespace Netlab
open Spec

variable (files : String → String → Option PgFile)

theorem resolves_unique (path name : String) (m m' : PgMod) (h : Resolves files path name m) (h' : Resolves files path name m') : m = m' := by
  induction h with
  | here n f hf hr =>
    cases h' with
    | here _ f' hf' hr' => rw [hf] at hf'; simp only [Option.some.injEq] at hf'; rw [hf']
    | redirect _ t f' _ hf' hr' _ => rw [hf] at hf'; simp only [Option.some.injEq] at hf'; subst hf'; rw [hr] at hr'; simp at hr'
  | redirect n t f x hf hr _ ih =>
    cases h' with
    | here _ f' hf' hr' => rw [hf] at hf'; simp only [Option.some.injEq] at hf'; subst hf'; rw [hr] at hr'; simp at hr'
    | redirect _ t' f' _ hf' hr' ht' =>
      rw [hf] at hf'
      simp only [Option.some.injEq] at hf'
      subst hf'
      rw [hr] at hr'
      simp only [Option.some.injEq] at hr'
      subst hr'
      exact ih ht'

theorem pgLoad_spec (depth : Nat) : ∀ (path name : String) (pl pl' : List String) (m : Option PgMod), pgLoad files depth path name pl = some (m, pl') →
    (∀ x, m = some x → Resolves files path name x) ∧ (m = none → ∀ x, ¬ Resolves files path name x) ∧ pl'.length = pl.length ∧
    ((∀ p n f, files p n = some f → f.redirect = none) → pl' = pl) := by
  induction depth with
  | zero => intro path name pl pl' m h; simp [pgLoad] at h
  | succ d ih =>
    intro path name pl pl' m h
    simp only [pgLoad] at h
    cases hf : files path name with
    | none =>
      rw [hf] at h
      simp only [Option.some.injEq, Prod.mk.injEq] at h
      obtain ⟨rfl, rfl⟩ := h
      refine ⟨by simp, ?_, rfl, fun _ => rfl⟩
      intro _ x hx
      cases hx with
      | here _ f h1 _ => rw [hf] at h1; simp at h1
      | redirect _ t f _ h1 _ _ => rw [hf] at h1; simp at h1
    | some f =>
      rw [hf] at h
      simp only at h
      cases hr : f.redirect with
      | none =>
        rw [hr] at h
        simp only [Option.some.injEq, Prod.mk.injEq] at h
        obtain ⟨rfl, rfl⟩ := h
        refine ⟨?_, by simp, rfl, fun _ => rfl⟩
        intro x hx
        simp only [Option.some.injEq] at hx
        subst hx
        exact .here name f hf hr
      | some t =>
        rw [hr] at h
        simp only at h
        obtain ⟨h1, h2, h3, h4⟩ := ih _ _ _ _ _ h
        refine ⟨fun x hx => .redirect name t f x hf hr (h1 x hx), ?_, by simpa using h3, ?_⟩
        · intro hm x hx
          cases hx with
          | here _ f' hf' hr' => rw [hf] at hf'; simp only [Option.some.injEq] at hf'; subst hf'; rw [hr] at hr'; simp at hr'
          | redirect _ t' f' _ hf' hr' ht' =>
            rw [hf] at hf'
            simp only [Option.some.injEq] at hf'
            subst hf'
            rw [hr] at hr'
            simp only [Option.some.injEq] at hr'
            subst hr'
            exact h2 hm x ht'
        · intro hno
          have := hno path name f hf
          rw [hr] at this
          simp at this

theorem pgSearch_spec (depth : Nat) (paths : List String) : ∀ (name : String) (pl pl' : List String) (m : Option PgMod), pgSearch files depth paths name pl = some (m, pl') →
    (∀ x, m = some x → FoundIn files paths name x) ∧ (m = none → ∀ x, ¬ FoundIn files paths name x) ∧ pl'.length = pl.length ∧
    ((∀ p n f, files p n = some f → f.redirect = none) → pl' = pl) := by
  induction paths with
  | nil =>
    intro name pl pl' m h
    simp only [pgSearch, Option.some.injEq, Prod.mk.injEq] at h
    obtain ⟨rfl, rfl⟩ := h
    refine ⟨by simp, ?_, rfl, fun _ => rfl⟩
    rintro _ x ⟨b, p, a, he, _⟩
    simp at he
  | cons p r ih =>
    intro name pl pl' m h
    simp only [pgSearch] at h
    cases hl : pgLoad files depth p name pl with
    | none => rw [hl] at h; simp at h
    | some q =>
      obtain ⟨m1, pl1⟩ := q
      obtain ⟨l1, l2, l3, l4⟩ := pgLoad_spec files depth p name pl pl1 m1 hl
      rw [hl] at h
      cases m1 with
      | some x =>
        simp only [Option.some.injEq, Prod.mk.injEq] at h
        obtain ⟨rfl, rfl⟩ := h
        refine ⟨?_, by simp, l3, l4⟩
        intro y hy
        exact ⟨[], p, r, rfl, by simp, l1 y hy⟩
      | none =>
        simp only at h
        obtain ⟨i1, i2, i3, i4⟩ := ih _ _ _ _ h
        refine ⟨?_, ?_, i3.trans l3, fun hno => (i4 hno).trans (l4 hno)⟩
        · intro x hx
          obtain ⟨b, q, a, he, hb, hq⟩ := i1 x hx
          refine ⟨p :: b, q, a, by rw [he]; rfl, ?_, hq⟩
          intro p' hp'
          rcases List.mem_cons.1 hp' with rfl | hp'
          · exact l2 rfl
          · exact hb p' hp'
        · intro hm x hx
          obtain ⟨b, q, a, he, hb, hq⟩ := hx
          cases b with
          | nil =>
            simp only [List.nil_append, List.cons.injEq] at he
            obtain ⟨rfl, _⟩ := he
            exact l2 rfl x hq
          | cons b0 b =>
            simp only [List.cons_append, List.cons.injEq] at he
            obtain ⟨rfl, he⟩ := he
            exact i2 hm x ⟨b, q, a, he, fun p' hp' => hb p' (List.mem_cons_of_mem _ hp'), hq⟩

theorem pgAll_spec (depth : Nat) (paths : List String) (req : List String) : ∀ (pl pl' : List String) (ms : List PgMod) (e : Nat), pgAll files depth paths req pl = some (pl', ms, e) →
    (e = 0 → List.Forall₂ (FoundIn files paths) req ms) ∧ (e = 0 ↔ ∀ n ∈ req, ∃ m, FoundIn files paths n m) ∧ pl'.length = pl.length ∧
    ((∀ p n f, files p n = some f → f.redirect = none) → pl' = pl) := by
  induction req with
  | nil =>
    intro pl pl' ms e h
    simp only [pgAll, Option.some.injEq, Prod.mk.injEq] at h
    obtain ⟨rfl, rfl, rfl⟩ := h
    exact ⟨fun _ => .nil, by simp, rfl, fun _ => rfl⟩
  | cons n r ih =>
    intro pl pl' ms e h
    simp only [pgAll] at h
    cases hs : pgSearch files depth paths n pl with
    | none => rw [hs] at h; simp at h
    | some q =>
      obtain ⟨m1, pl1⟩ := q
      obtain ⟨s1, s2, s3, s4⟩ := pgSearch_spec files depth paths n pl pl1 m1 hs
      rw [hs] at h
      simp only at h
      cases ha : pgAll files depth paths r pl1 with
      | none => rw [ha] at h; simp at h
      | some q =>
        obtain ⟨pl2, ms2, e2⟩ := q
        obtain ⟨i1, i2, i3, i4⟩ := ih _ _ _ _ ha
        rw [ha] at h
        simp only at h
        cases m1 with
        | some x =>
          simp only [Option.some.injEq, Prod.mk.injEq] at h
          obtain ⟨rfl, rfl, rfl⟩ := h
          refine ⟨fun he => .cons (s1 x rfl) (i1 he), ?_, i3.trans s3, fun hno => (i4 hno).trans (s4 hno)⟩
          rw [List.forall_mem_cons, i2]
          exact ⟨fun hx => ⟨⟨x, s1 x rfl⟩, hx⟩, fun hx => hx.2⟩
        | none =>
          simp only [Option.some.injEq, Prod.mk.injEq] at h
          obtain ⟨rfl, rfl, rfl⟩ := h
          refine ⟨by omega, ?_, i3.trans s3, fun hno => (i4 hno).trans (s4 hno)⟩
          rw [List.forall_mem_cons]
          constructor
          · intro hx; omega
          · rintro ⟨⟨x, hx⟩, _⟩
            exact absurd hx (s2 rfl x)

theorem pgLoad_chain (depth : Nat) : ∀ (path name : String) (pl pl' : List String) (x : PgMod), pgLoad files depth path name pl = some (some x, pl') →
    ∃ chain final, RedirectChain files path name chain final x ∧ pl' = pl.map (fun p => if p ∈ chain then final else p) := by
  induction depth with
  | zero => intro path name pl pl' x h; simp [pgLoad] at h
  | succ d ih =>
    intro path name pl pl' x h
    simp only [pgLoad] at h
    cases hf : files path name with
    | none => rw [hf] at h; simp at h
    | some f =>
      rw [hf] at h
      simp only at h
      cases hr : f.redirect with
      | none =>
        rw [hr] at h
        simp only [Option.some.injEq, Prod.mk.injEq] at h
        obtain ⟨rfl, rfl⟩ := h
        exact ⟨[], name, .final name f hf hr, by simp⟩
      | some t =>
        rw [hr] at h
        simp only at h
        obtain ⟨chain, final, h1, h2⟩ := ih _ _ _ _ _ h
        refine ⟨name :: chain, final, .next name t chain final f x hf hr h1, ?_⟩
        rw [h2, List.map_map]
        apply List.map_congr_left
        intro p _
        simp only [Function.comp]
        by_cases hp : p = name
        · rw [if_pos hp]
          have hm : p ∈ name :: chain := by rw [hp]; exact List.mem_cons_self
          rw [if_pos hm]
          cases h1 with
          | final _ f' hf' hr' => simp
          | next _ t' chain' _ f' _ hf' hr' ht' => simp
        · rw [if_neg hp]
          by_cases hc : p ∈ chain
          · rw [if_pos hc, if_pos (List.mem_cons_of_mem _ hc)]
          · rw [if_neg hc, if_neg (by simp [hp, hc])]

/-- **C106**: a redirected plugin is replaced with the plugin it's redirected to (following the whole chain of redirections) in the list of plugins; all other plugins stay where they are. -/
theorem C106_redirect (depth : Nat) (before after : List String) (path name : String) (pl pl' : List String) (m : PgMod)
    (hb : ∀ b ∈ before, files b name = none) (h : pgSearch files depth (before ++ path :: after) name pl = some (some m, pl'))
    (hres : ∃ x, Resolves files path name x) :
    ∃ chain final, RedirectChain files path name chain final m ∧ pl' = pl.map (fun p => if p ∈ chain then final else p) := by
  induction before with
  | nil =>
    simp only [List.nil_append, pgSearch] at h
    cases hl : pgLoad files depth path name pl with
    | none => rw [hl] at h; simp at h
    | some q =>
      obtain ⟨m1, pl1⟩ := q
      rw [hl] at h
      cases m1 with
      | some x =>
        simp only [Option.some.injEq, Prod.mk.injEq] at h
        obtain ⟨rfl, rfl⟩ := h
        exact pgLoad_chain files depth path name pl pl1 x hl
      | none =>
        obtain ⟨x, hx⟩ := hres
        exact absurd hx ((pgLoad_spec files depth path name pl pl1 none hl).2.1 rfl x)
  | cons b before ih =>
    simp only [List.cons_append, pgSearch] at h
    cases depth with
    | zero => simp [pgLoad] at h
    | succ d =>
      have : pgLoad files (d + 1) b name pl = some (none, pl) := by simp only [pgLoad, hb b List.mem_cons_self]
      rw [this] at h
      exact ih (fun x hx => hb x (List.mem_cons_of_mem _ hx)) h

example : (pgSearch (fun p n => if p = "lib" ∧ n = "old" then some { mod := { file := "old" }, redirect := some "new" } else if p = "lib" ∧ n = "new" then some { mod := { file := "new" } } else none)
    10 ["local", "lib"] "old" ["a", "old", "b"]).map (·.2) = some ["a", "new", "b"] := by decide +kernel

theorem pgMap_mem (names : List String) (mods : List PgMod) (hl : mods.length = names.length) (n : String) (hn : n ∈ names) : ∃ m ∈ mods, pgMap names mods n = some m := by
  have hk : n ∈ ((names.zip mods).reverse).map (·.1) := by
    rw [List.map_reverse, List.mem_reverse, List.map_fst_zip (by omega)]
    exact hn
  cases hm : pgMap names mods n with
  | none =>
    unfold pgMap at hm
    rw [lookup_eq_none_iff] at hm
    exact absurd hk hm
  | some m =>
    refine ⟨m, ?_, rfl⟩
    unfold pgMap at hm
    have := List.mem_reverse.1 (mem_of_lookup hm)
    exact (List.of_mem_zip this).2

theorem pg_filterMap {f : String → Option PgMod} (l : List String) (h : ∀ n ∈ l, ∃ m, f n = some m) : List.Forall₂ (fun n m => f n = some m) l (l.filterMap f) := by
  induction l with
  | nil => exact .nil
  | cons a r ih =>
    obtain ⟨m, hm⟩ := h a List.mem_cons_self
    rw [List.filterMap_cons, hm]
    exact .cons hm (ih (fun n hn => h n (List.mem_cons_of_mem _ hn)))

theorem pg_pairwise {f : String → Option PgMod} {R : String → PgMod → String → Prop} (l : List String) (ms : List PgMod) (hf : List.Forall₂ (fun n m => f n = some m) l ms)
    (hp : l.Pairwise (fun a b => ∀ m, f a = some m → R a m b)) : (l.zip ms).Pairwise (fun x y => R x.1 x.2 y.1) := by
  induction hf with
  | nil => exact .nil
  | @cons a m r ms h1 h2 ih =>
    rw [List.pairwise_cons] at hp
    rw [List.zip_cons_cons, List.pairwise_cons]
    refine ⟨?_, ih hp.2⟩
    intro y hy
    exact hp.1 y.1 (List.of_mem_zip (by rw [← Prod.eta y] at hy; exact hy)).1 m h1

/-- Loaded plugins without errors: names and modules -/
theorem pgInit_spec (depth : Nat) (paths plugins defaults : List String) (names : List String) (mods : List PgMod) (h : pgInit files depth paths plugins defaults = some (names, mods, 0)) :
    ∃ names0 mods0, pgAll files depth paths (plugins ++ defaults) (plugins ++ defaults) = some (names0, mods0, 0) ∧ pgSort names0 mods0 = some (names, mods) := by
  unfold pgInit at h
  cases ha : pgAll files depth paths (plugins ++ defaults) (plugins ++ defaults) with
  | none => rw [ha] at h; simp at h
  | some q =>
    obtain ⟨n0, m0, e⟩ := q
    rw [ha] at h
    simp only at h
    split at h
    · simp only [Option.some.injEq, Prod.mk.injEq] at h; omega
    · have he : e = 0 := by omega
      subst he
      rw [Option.map_eq_some_iff] at h
      obtain ⟨r, hr, hx⟩ := h
      simp only [Prod.mk.injEq, and_true] at hx
      exact ⟨n0, m0, rfl, by rw [hr, ← hx.1, ← hx.2]⟩

/-- **C106**: an error is reported if and only if there's a plugin that cannot be found in any directory of the search path. -/
theorem C106_not_found (depth : Nat) (paths plugins defaults : List String) (names : List String) (mods : List PgMod) (e : Nat)
    (h : pgInit files depth paths plugins defaults = some (names, mods, e)) : e = 0 ↔ ∀ n ∈ plugins ++ defaults, ∃ m, FoundIn files paths n m := by
  unfold pgInit at h
  cases ha : pgAll files depth paths (plugins ++ defaults) (plugins ++ defaults) with
  | none => rw [ha] at h; simp at h
  | some q =>
    obtain ⟨n0, m0, e0⟩ := q
    obtain ⟨_, h2, _, _⟩ := pgAll_spec files depth paths _ _ _ _ _ ha
    rw [ha] at h
    simp only at h
    split at h
    · simp only [Option.some.injEq, Prod.mk.injEq] at h
      rw [← h.2.2]
      exact h2
    · have he : e0 = 0 := by omega
      rw [Option.map_eq_some_iff] at h
      obtain ⟨r, _, hx⟩ := h
      simp only [Prod.mk.injEq] at hx
      rw [← hx.2.2]
      exact ⟨fun _ => h2.1 he, fun _ => rfl⟩

theorem pg_lookup_mem_nodup {names : List String} {mods : List PgMod} (hl : mods.length = names.length) (hn : names.Nodup) {n : String} {m : PgMod} (h : (n, m) ∈ names.zip mods) :
    pgMap names mods n = some m := by
  unfold pgMap
  have hk : ((names.zip mods).reverse.map (·.1)).Nodup := by
    rw [List.map_reverse, List.map_fst_zip (by omega)]
    exact List.nodup_reverse.2 hn
  exact lookup_of_mem hk (List.mem_reverse.2 h)

theorem forall₂_zip_iff {R : String → PgMod → Prop} {l : List String} {ms : List PgMod} (h : List.Forall₂ R l ms) : ∀ x ∈ l.zip ms, R x.1 x.2 := by
  induction h with
  | nil => simp
  | cons h1 _ ih =>
    rw [List.zip_cons_cons, List.forall_mem_cons]
    exact ⟨h1, ih⟩

/-- **C106**: when all plugins are found, the list of plugins (none of them redirected) is sorted, and every plugin on the sorted list is the module found in the first directory that has it. -/
theorem C106_loaded (hno : ∀ p n f, files p n = some f → f.redirect = none) (depth : Nat) (paths plugins defaults : List String)
    (names : List String) (mods : List PgMod) (h : pgInit files depth paths plugins defaults = some (names, mods, 0)) :
    names.Perm (plugins ++ defaults) ∧ List.Forall₂ (FoundIn files paths) names mods := by
  obtain ⟨n0, m0, ha, hs⟩ := pgInit_spec files depth paths plugins defaults names mods h
  obtain ⟨a1, _, _, a4⟩ := pgAll_spec files depth paths _ _ _ _ _ ha
  have hn0 := a4 hno
  subst hn0
  have hf := a1 rfl
  have hl := hf.length_eq
  unfold pgSort at hs
  split at hs
  · rename_i he
    simp only [Option.some.injEq, Prod.mk.injEq] at hs
    rw [← hs.1, ← hs.2]
    exact ⟨List.Perm.refl _, hf⟩
  · split at hs
    · simp at hs
    · rw [Option.map_eq_some_iff] at hs
      obtain ⟨s, hss, he⟩ := hs
      simp only [Prod.mk.injEq] at he
      obtain ⟨rfl, rfl⟩ := he
      have hp := (C13_sorted _ _ _ hss).1
      refine ⟨hp, ?_⟩
      have hm : ∀ n ∈ s, ∃ m, pgMap (plugins ++ defaults) m0 n = some m ∧ FoundIn files paths n m := by
        intro n hx
        obtain ⟨m, _, hm⟩ := pgMap_mem (plugins ++ defaults) m0 hl.symm n (hp.mem_iff.1 hx)
        refine ⟨m, hm, ?_⟩
        unfold pgMap at hm
        exact forall₂_zip_iff hf (n, m) (List.mem_reverse.1 (mem_of_lookup hm))
      have h2 := pg_filterMap (f := pgMap (plugins ++ defaults) m0) s (fun n hx => ⟨_, (hm n hx).choose_spec.1⟩)
      have : ∀ (l : List String) (ms : List PgMod), (∀ n ∈ l, n ∈ s) → List.Forall₂ (fun n m => pgMap (plugins ++ defaults) m0 n = some m) l ms → List.Forall₂ (FoundIn files paths) l ms := by
        intro l ms hsub hff
        induction hff with
        | nil => exact .nil
        | @cons a b l ms h1 _ ih =>
          refine .cons ?_ (ih (fun n hn => hsub n (List.mem_cons_of_mem _ hn)))
          obtain ⟨m, hm1, hm2⟩ := hm a (hsub a List.mem_cons_self)
          rw [h1] at hm1
          simp only [Option.some.injEq] at hm1
          rw [hm1]
          exact hm2
      exact this s _ (fun _ h => h) h2

/-- **C106**: plugins are sorted: no plugin is in front of a plugin it requires, or should be executed after. -/
theorem C106_order (depth : Nat) (paths plugins defaults : List String) (names : List String) (mods : List PgMod) (h : pgInit files depth paths plugins defaults = some (names, mods, 0)) :
    mods.length = names.length ∧ names.length = (plugins ++ defaults).length ∧
    (names.zip mods).Pairwise (fun x y => y.1 ∉ requiredBy x.2 ∧ y.1 ∉ x.2.after) := by
  obtain ⟨n0, m0, ha, hs⟩ := pgInit_spec files depth paths plugins defaults names mods h
  obtain ⟨a1, _, a3, _⟩ := pgAll_spec files depth paths _ _ _ _ _ ha
  have hl : m0.length = n0.length := by rw [a3]; exact (a1 rfl).length_eq.symm
  unfold pgSort at hs
  split at hs
  · rename_i he
    simp only [Option.some.injEq, Prod.mk.injEq] at hs
    rw [← hs.1, ← hs.2]
    have : n0 = [] := by simpa using he
    refine ⟨hl, a3, ?_⟩
    rw [this]
    simp
  · split at hs
    · simp at hs
    · rw [Option.map_eq_some_iff] at hs
      obtain ⟨s, hss, he⟩ := hs
      simp only [Prod.mk.injEq] at he
      obtain ⟨rfl, rfl⟩ := he
      obtain ⟨hp, hpw⟩ := C13_sorted _ _ _ hss
      have h2 := pg_filterMap (f := pgMap n0 m0) s (fun n hx => by
        obtain ⟨m, _, hm⟩ := pgMap_mem n0 m0 hl n (hp.mem_iff.1 hx)
        exact ⟨m, hm⟩)
      refine ⟨h2.length_eq.symm, by rw [hp.length_eq, a3], ?_⟩
      refine pg_pairwise (f := pgMap n0 m0) (R := fun _ m b => b ∉ requiredBy m ∧ b ∉ m.after) s _ h2 (hpw.imp ?_)
      intro a b hb m hm
      rw [hm] at hb
      simp only [pgDeps, List.mem_append, not_or] at hb
      exact hb

/-- A function executed for every plugin that has it, in the order of plugins -/
theorem pgExecute_trace (mods : List PgMod) (action : String) (t : List PgMod) :
    pgExecute (fun m _ t => t ++ [m]) action mods t = t ++ mods.filter (fun m => m.hooks.contains action) := by
  unfold pgExecute
  induction mods generalizing t with
  | nil => simp
  | cons m r ih =>
    simp only [List.foldl_cons, List.filter_cons]
    rw [ih]
    split <;> simp

/-- **C106**: an action executes the function of every plugin that has it, in the order of plugins: the function of a plugin is never executed before the function of a plugin it depends on, and
(for different plugins) it's executed once. -/
theorem C106_execute (depth : Nat) (paths plugins defaults : List String) (names : List String) (mods : List PgMod) (h : pgInit files depth paths plugins defaults = some (names, mods, 0))
    (action : String) :
    (executed mods action).Sublist mods ∧ (∀ m, m ∈ executed mods action ↔ m ∈ mods ∧ action ∈ m.hooks) ∧
    (mods.Nodup → (executed mods action).Nodup) ∧
    ∀ i j (hi : i < mods.length) (hj : j < mods.length) (hni : i < names.length) (hnj : j < names.length), names[j] ∈ requiredBy mods[i] ∨ names[j] ∈ mods[i].after → ¬ i < j := by
  have ht : executed mods action = mods.filter (fun m => m.hooks.contains action) := by
    unfold executed
    rw [pgExecute_trace]
    simp
  rw [ht]
  refine ⟨List.filter_sublist, by simp, fun hn => hn.sublist List.filter_sublist, ?_⟩
  intro i j hi hj hni hnj hdep hlt
  obtain ⟨hl, _, hp⟩ := C106_order files depth paths plugins defaults names mods h
  have hzi : i < (names.zip mods).length := by simp; omega
  have hzj : j < (names.zip mods).length := by simp; omega
  have := List.pairwise_iff_getElem.1 hp i j hzi hzj hlt
  simp only [List.getElem_zip] at this
  rcases hdep with hd | hd
  · exact this.1 hd
  · exact this.2 hd

/-- **C106**: the functions of plugins are applied one after the other: the topology produced by a plugin is the input of the next one. -/
theorem C106_compose {S : Type} (func : PgMod → String → S → S) (action : String) (a b : List PgMod) (s : S) :
    pgExecute func action (a ++ b) s = pgExecute func action b (pgExecute func action a s) := by
  unfold pgExecute
  rw [List.foldl_append]

/-- **C106**: the dependency check reports no errors if and only if the dependencies of every plugin are lists of plugins and modules used in the lab topology. -/
theorem C106_requires (names modules : List String) (mods : List PgMod) :
    pgCheck names modules mods = 0 ↔ ∀ m ∈ mods, m.requires ≠ some .bad ∧ ∀ d ∈ requiredBy m, d ∈ names ∨ d ∈ modules := by
  unfold pgCheck
  induction mods with
  | nil => simp
  | cons m r ih =>
    simp only [List.map_cons, List.sum_cons, Nat.add_eq_zero_iff, List.forall_mem_cons]
    refine and_congr ?_ ih
    unfold pgRequires requiredBy
    cases hr : m.requires with
    | none => simp
    | some q =>
      cases q with
      | bad => simp
      | list l =>
        simp only [ne_eq, Option.some.injEq, reduceCtorEq, not_false_eq_true, true_and]
        rw [List.length_eq_zero_iff, List.filter_eq_nil_iff]
        apply forall_congr'; intro d
        apply imp_congr_right; intro _
        by_cases h1 : d ∈ names <;> by_cases h2 : d ∈ modules <;> simp [h1, h2]

/-- Plugins used in examples -/
def exPlugins (path name : String) : Option PgFile :=
  if path = "extra" then
    (if name = "a" then some { mod := { file := "extra/a", requires := some (.list ["b"]), hooks := ["init"] } }
     else if name = "b" then some { mod := { file := "extra/b", hooks := ["init"] } }
     else if name = "old" then some { mod := { file := "extra/old" }, redirect := some "b" }
     else if name = "bad" then some { mod := { file := "extra/bad", requires := some .bad } }
     else if name = "loop" then some { mod := { file := "extra/loop" }, redirect := some "loop" }
     else none)
  else none

example : pgInit exPlugins 1000 [".", "extra"] ["a"] ["b"] =
    some (["b", "a"], [{ file := "extra/b", hooks := ["init"] }, { file := "extra/a", requires := some (.list ["b"]), hooks := ["init"] }], 0) := by decide +kernel

/-- **C106** (defect): a plugin used in lab topology and in system defaults, or under two names, is executed twice. -/
theorem C106_executed_twice :
    (pgInit exPlugins 1000 ["extra"] ["b"] ["b"]).map (fun r => (executed r.2.1 "init").map (·.file)) = some ["extra/b", "extra/b"] ∧
    (pgInit exPlugins 1000 ["extra"] ["old", "b"] []).map (fun r => (executed r.2.1 "init").map (·.file)) = some ["extra/b", "extra/b"] := by
  constructor <;> decide +kernel

/-- **C106** (defect): `_requires` attribute that is not a list crashes the sorting of plugins before the error can be reported. -/
theorem C106_bad_requires : pgInit exPlugins 1000 ["extra"] ["bad", "b"] [] = none ∧ (∃ r, pgInit exPlugins 1000 ["extra"] ["bad"] [] = some r) := by
  constructor
  · decide +kernel
  · exact ⟨_, rfl⟩

theorem pgLoad_loop (depth : Nat) : ∀ pl, pgLoad exPlugins depth "extra" "loop" pl = none := by
  induction depth with
  | zero => intro pl; rfl
  | succ n ih =>
    intro pl
    simp only [pgLoad]
    have : exPlugins "extra" "loop" = some { mod := { file := "extra/loop" }, redirect := some "loop" } := by decide
    rw [this]
    exact ih _

/-- **C106** (defect): a plugin redirected to itself crashes netlab, whatever the recursion limit is. -/
theorem C106_redirect_loop (depth : Nat) : pgInit exPlugins depth ["extra"] ["loop"] [] = none := by
  simp [pgInit, pgAll, pgSearch, pgLoad_loop]

end Netlab
