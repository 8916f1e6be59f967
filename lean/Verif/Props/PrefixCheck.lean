import Verif.Spec.PrefixCheck
import Verif.Props.EvpnNode
import Verif.Props.BgpSession
import Mathlib.Data.List.Forall2

namespace Netlab

open Spec

variable {P V : Type}

/-! ### The framework -/

/-- The check is a filter that may report the absence of paths. -/
def VpSem (missing : Bool) (c : List P → VpOut P) (f : P → Bool) : Prop :=
  ∀ d, c d = .data (d.filter f) ∨ (c d = .fail ∧ d.filter f = [] ∧ missing = false)

theorem vpLoop_present {cs : List (List P → VpOut P)} {fs : List (P → Bool)} (h : List.Forall₂ (VpSem false) cs fs) (d : List P) :
    vpLoop false cs d = true ↔ cs = [] ∨ ∃ p ∈ d, ∀ f ∈ fs, f p = true := by
  have key : ∀ d : List P, d ≠ [] → (vpLoop false cs d = true ↔ ∃ p ∈ d, ∀ f ∈ fs, f p = true) := by
    induction h with
    | nil =>
      intro d hd
      obtain ⟨x, hx⟩ := List.exists_mem_of_ne_nil d hd
      simp only [vpLoop, Bool.not_false, true_iff]
      exact ⟨x, hx, fun _ h => (nomatch h)⟩
    | @cons c f cs fs hc _ ih =>
      intro d _
      unfold vpLoop
      have hmem : (∃ p ∈ d, ∀ g ∈ f :: fs, g p = true) ↔ ∃ p ∈ d.filter f, ∀ g ∈ fs, g p = true := by
        constructor
        · rintro ⟨p, hp, hg⟩
          exact ⟨p, List.mem_filter.2 ⟨hp, hg f List.mem_cons_self⟩, fun g hg' => hg g (List.mem_cons_of_mem _ hg')⟩
        · rintro ⟨p, hp, hg⟩
          obtain ⟨h1, h2⟩ := List.mem_filter.1 hp
          refine ⟨p, h1, fun g hg' => ?_⟩
          rcases List.mem_cons.1 hg' with rfl | hg'
          · exact h2
          · exact hg g hg'
      rw [hmem]
      rcases hc d with h | ⟨h, h0, _⟩
      · rw [h]
        simp only
        by_cases he : d.filter f = []
        · rw [if_pos (by simp [he]), he]
          simp
        · rw [if_neg (by simpa using he)]
          simp only [Bool.false_eq_true, if_false]
          exact ih _ he
      · rw [h, h0]
        simp
  cases h with
  | nil => simp [vpLoop]
  | @cons c f cs fs hc ht =>
    simp only [List.cons_ne_nil, false_or]
    by_cases hd : d = []
    · subst hd
      unfold vpLoop
      rcases hc [] with h | ⟨h, _, _⟩
      · rw [h]; simp
      · rw [h]; simp
    · exact key d hd

theorem vpLoop_missing {c : List P → VpOut P} {f : P → Bool} (cs : List (List P → VpOut P)) (h : VpSem true c f) (d : List P) :
    vpLoop true (c :: cs) d = true ↔ ∀ p ∈ d, f p = false := by
  unfold vpLoop
  rcases h d with h | ⟨_, _, h⟩
  · rw [h]
    simp only
    by_cases he : d.filter f = []
    · rw [if_pos (by simp [he])]
      simpa using he
    · rw [if_neg (by simpa using he)]
      simp only [if_true, Bool.false_eq_true, false_iff]
      intro hall
      exact he (List.filter_eq_nil_iff.2 (fun p hp => by rw [hall p hp]; simp))
  · cases h

/-- Filters used in the validation -/
def vpOptF (v : Option V) (f : V → P → Bool) : List (P → Bool) :=
  match v with
  | none => []
  | some x => [f x]

theorem vpOpt_sem {m : Bool} (o : Option V) {f : V → List P → VpOut P} {g : V → P → Bool} (h : ∀ v, VpSem m (f v) (g v)) :
    List.Forall₂ (VpSem m) (vpOpt o f) (vpOptF o g) := by
  cases o with
  | none => exact .nil
  | some v => exact .cons (h v) .nil

theorem vp_append {α β : Type} {R : α → β → Prop} {a c : List α} {b d : List β} (h1 : List.Forall₂ R a b) (h2 : List.Forall₂ R c d) :
    List.Forall₂ R (a ++ c) (b ++ d) := by
  induction h1 with
  | nil => exact h2
  | cons h _ ih => exact .cons h ih

theorem vpOptF_mem (o : Option V) (g : V → P → Bool) (p : P) : (∀ f ∈ vpOptF o g, f p = true) ↔ ∀ v, o = some v → g v p = true := by
  cases o with
  | none => simp [vpOptF]
  | some v => simp [vpOptF]

theorem vp_filter_sem (m : Bool) (f : P → Bool) : VpSem m (fun d => .data (d.filter f)) f := fun _ => Or.inl rfl

theorem vp_strict_sem (st : VpState) (f : P → Bool) : VpSem (st = .missing) (fun d => vpStrict st (d.filter f)) f := by
  intro d
  unfold vpStrict
  by_cases h : ((d.filter f).isEmpty && decide (st ≠ .missing)) = true
  · simp only [h, if_true]
    simp only [Bool.and_eq_true, List.isEmpty_iff, decide_eq_true_eq] at h
    exact Or.inr ⟨trivial, h.1, by simpa using h.2⟩
  · exact Or.inl (if_neg h)

theorem vpHost_iff (v h : String) : vpHost v = h ↔ HostPart v h := by
  unfold vpHost HostPart
  have key : ∀ l : List Char, '/' ∉ l.takeWhile (· ≠ '/') ∧ (l = l.takeWhile (· ≠ '/') ∨ ∃ r, l = l.takeWhile (· ≠ '/') ++ '/' :: r) := by
    intro l
    induction l with
    | nil => simp
    | cons c r ih =>
      by_cases hc : c = '/'
      · subst hc
        simp
      · rw [List.takeWhile_cons_of_pos (by simpa using hc)]
        refine ⟨?_, ?_⟩
        · simp only [List.mem_cons, not_or]
          exact ⟨fun h => hc h.symm, ih.1⟩
        · rcases ih.2 with h | ⟨x, h⟩
          · exact Or.inl (by rw [← h])
          · exact Or.inr ⟨x, by rw [List.cons_append, ← h]⟩
  constructor
  · rintro rfl
    simp only [String.toList_ofList]
    refine ⟨(key v.toList).1, ?_⟩
    rcases (key v.toList).2 with h | h
    · left
      rw [← String.toList_inj, String.toList_ofList]
      exact h
    · exact Or.inr h
  · rintro ⟨h1, h2⟩
    have hw : ∀ l : List Char, '/' ∉ l → l.takeWhile (· ≠ '/') = l := by
      intro l hl
      induction l with
      | nil => rfl
      | cons c r ih =>
        simp only [List.mem_cons, not_or] at hl
        rw [List.takeWhile_cons_of_pos (by simpa using fun h => hl.1 h.symm), ih hl.2]
    have hw2 : ∀ l r : List Char, '/' ∉ l → (l ++ '/' :: r).takeWhile (· ≠ '/') = l := by
      intro l r hl
      induction l with
      | nil => simp
      | cons c l ih =>
        simp only [List.mem_cons, not_or] at hl
        rw [List.cons_append, List.takeWhile_cons_of_pos (by simpa using fun h => hl.1 h.symm), ih hl.2]
    rcases h2 with rfl | ⟨r, hr⟩
    · rw [hw _ h1, String.ofList_toList]
    · rw [hr, hw2 _ _ h1, String.ofList_toList]

theorem vpRun_iff (missing unknown : Bool) (checks : List (List P → VpOut P)) (t : Option (List P)) :
    vpRun missing unknown checks t = true ↔ (t = none ∧ missing = true) ∨ ∃ d, t = some d ∧ unknown = false ∧ vpLoop missing checks d = true := by
  unfold vpRun
  cases t with
  | none => simp
  | some d => cases unknown <;> simp

/-! ### FRR -/

/-- Filters used in FRR validation -/
def frFilters (a : VpArgs) : List (FrPath → Bool) :=
  vpOptF a.peer (fun v p => p.peer == v) ++
  vpOptF a.nh (fun v p => p.nexthops.contains (vpHost v)) ++
  vpOptF a.best (fun v p => p.best == some v) ++
  vpOptF a.clusterid (fun v p => (p.cluster.getD []).contains v) ++
  vpOptF a.asElements (fun v p => (frLeft v p.segments).isEmpty) ++
  vpOptF a.aspath (fun v p => p.aspath == v) ++
  vpOptF a.locpref (fun v p => p.locpref == some v) ++
  vpOptF a.med (fun v p => p.med == some v)

theorem frChecks_sem (st : VpState) (a : VpArgs) (hc : a.community = none) : List.Forall₂ (VpSem (st = .missing)) (frChecks st a) (frFilters a) := by
  unfold frChecks frFilters
  rw [hc]
  simp only [vpOpt, List.append_nil]
  refine vp_append (vp_append (vp_append (vp_append (vp_append (vp_append (vp_append ?_ ?_) ?_) ?_) ?_) ?_) ?_) ?_
  · exact vpOpt_sem _ (fun v => vp_filter_sem _ _)
  · exact vpOpt_sem _ (fun v => vp_strict_sem _ _)
  · exact vpOpt_sem _ (fun v => vp_filter_sem _ _)
  · exact vpOpt_sem _ (fun v => vp_strict_sem _ _)
  · exact vpOpt_sem _ (fun v => vp_strict_sem _ _)
  · exact vpOpt_sem _ (fun v => vp_strict_sem _ _)
  · exact vpOpt_sem _ (fun v => vp_filter_sem _ _)
  · exact vpOpt_sem _ (fun v => vp_filter_sem _ _)

theorem mem_removeAll (l s : List V) [DecidableEq V] (n : V) :
    n ∈ s.foldl (fun a n => if a.contains n then a.filter (· ≠ n) else a) l ↔ n ∈ l ∧ n ∉ s := by
  induction s generalizing l with
  | nil => simp
  | cons x r ih =>
    rw [List.foldl_cons, ih]
    by_cases hx : l.contains x = true
    · rw [if_pos hx]
      simp only [List.mem_filter, decide_eq_true_eq, List.mem_cons, not_or]
      exact ⟨fun h => ⟨h.1.1, h.1.2, h.2⟩, fun h => ⟨⟨h.1, h.2.1⟩, h.2.2⟩⟩
    · rw [if_neg hx]
      simp only [List.mem_cons, not_or]
      refine ⟨fun h => ⟨h.1, ?_, h.2⟩, fun h => ⟨h.1, h.2.2⟩⟩
      rintro rfl
      exact hx (by simpa using h.1)

theorem frLeft_iff (v : List Nat) (segs : List (List Nat)) : (frLeft v segs).isEmpty = true ↔ ∀ n ∈ v, ∃ s ∈ segs, n ∈ s := by
  have key : ∀ n, n ∈ frLeft v segs ↔ n ∈ v ∧ ∀ s ∈ segs, n ∉ s := by
    intro n
    unfold frLeft
    induction segs generalizing v with
    | nil => simp
    | cons s r ih =>
      rw [List.foldl_cons, ih, mem_removeAll]
      simp only [List.mem_cons, forall_eq_or_imp, and_assoc]
  rw [List.isEmpty_iff, List.eq_nil_iff_forall_not_mem]
  simp only [key, not_and, Classical.not_forall, Classical.not_not]
  constructor
  · intro h n hn
    obtain ⟨s, hs, hm⟩ := h n hn
    exact ⟨s, hs, hm⟩
  · intro h n hn
    obtain ⟨s, hs, hm⟩ := h n hn
    exact ⟨s, hs, hm⟩

theorem frFilters_iff (a : VpArgs) (p : FrPath) : (∀ f ∈ frFilters a, f p = true) ↔ FrMatches a p := by
  unfold frFilters
  simp only [List.forall_mem_append, vpOptF_mem, beq_iff_eq, frLeft_iff]
  have hnh : ∀ v, p.nexthops.contains (vpHost v) = true ↔ ∃ h ∈ p.nexthops, HostPart v h := by
    intro v
    rw [List.contains_iff_mem]
    exact ⟨fun h => ⟨_, h, (vpHost_iff v _).1 rfl⟩, fun ⟨h, hm, hp⟩ => by rw [(vpHost_iff v h).2 hp]; exact hm⟩
  have hcl : ∀ v, (p.cluster.getD []).contains v = true ↔ ∃ l, p.cluster = some l ∧ v ∈ l := by
    intro v
    cases p.cluster with
    | none => simp
    | some l => simp
  simp only [hnh, hcl]
  constructor
  · rintro ⟨⟨⟨⟨⟨⟨⟨h1, h2⟩, h3⟩, h4⟩, h5⟩, h6⟩, h7⟩, h8⟩
    exact ⟨h1, h2, h3, h4, h5, h6, h7, h8⟩
  · rintro ⟨h1, h2, h3, h4, h5, h6, h7, h8⟩
    exact ⟨⟨⟨⟨⟨⟨⟨h1, h2⟩, h3⟩, h4⟩, h5⟩, h6⟩, h7⟩, h8⟩

theorem vpOpt_nil (o : Option V) (f : V → List P → VpOut P) : vpOpt o f = [] ↔ o = none := by
  cases o <;> simp [vpOpt]

theorem frChecks_nil (st : VpState) (a : VpArgs) : frChecks st a = [] ↔ NoAttributes a := by
  unfold frChecks NoAttributes
  simp only [List.append_eq_nil_iff, vpOpt_nil, and_assoc]

/-- C89: a test of a prefix that should be in the FRR table passes exactly when the prefix has a path with all requested attributes. -/
theorem C89_frr_present (st : VpState) (hst : st ≠ .missing) (a : VpArgs) (hc : a.community = none) (t : Option (List FrPath)) :
    frValid st a t = true ↔ ∃ d, t = some d ∧ a.unknown = false ∧ (NoAttributes a ∨ ∃ p ∈ d, FrMatches a p) := by
  unfold frValid
  have hs := frChecks_sem st a hc
  have hf : decide (st = .missing) = false := by simpa using hst
  rw [hf] at hs ⊢
  rw [vpRun_iff]
  simp only [vpLoop_present hs, frChecks_nil, frFilters_iff, Bool.false_eq_true, and_false, false_or]

/-- C89: when a test of a prefix that should not be in the FRR table passes, the prefix has no path with all requested attributes. -/
theorem C89_frr_missing_sound (a : VpArgs) (hc : a.community = none) (t : Option (List FrPath)) (h : frValid .missing a t = true) :
    ∀ d, t = some d → ¬ NoAttributes a ∧ ∀ p ∈ d, ¬ FrMatches a p := by
  unfold frValid at h
  rintro d rfl
  have hs := frChecks_sem .missing a hc
  simp only [decide_true] at hs h
  rw [vpRun_iff] at h
  rcases h with ⟨h, _⟩ | ⟨d', hd, _, hl⟩
  · cases h
  · cases hd
    refine ⟨fun hno => ?_, fun p hp hm => ?_⟩
    · rw [(frChecks_nil .missing a).2 hno] at hl
      simp [vpLoop] at hl
    · rw [← frFilters_iff] at hm
      cases hcs : frChecks .missing a with
      | nil => rw [hcs] at hl; simp [vpLoop] at hl
      | cons c cs =>
        rw [hcs] at hs hl
        cases hfs : frFilters a with
        | nil => rw [hfs] at hs; cases hs
        | cons f fs =>
          rw [hfs] at hs hm
          cases hs with
          | cons h1 _ =>
            have := (vpLoop_missing cs h1 d).1 hl p hp
            rw [hm f List.mem_cons_self] at this
            cases this

theorem vpOpt_length (o : Option V) (f : V → List P → VpOut P) : (vpOpt o f).length = o.toList.length := by
  cases o <;> rfl

/-- C89: ... and with at most one attribute it passes exactly when there is no such path. -/
theorem C89_frr_missing_single (a : VpArgs) (hc : a.community = none) (h1 : attributeCount a ≤ 1) (t : Option (List FrPath)) :
    frValid .missing a t = true ↔ t = none ∨ ∃ d, t = some d ∧ a.unknown = false ∧ ¬ NoAttributes a ∧ ∀ p ∈ d, ¬ FrMatches a p := by
  constructor
  · intro h
    cases t with
    | none => exact Or.inl rfl
    | some d =>
      have hs := C89_frr_missing_sound a hc _ h d rfl
      refine Or.inr ⟨d, rfl, ?_, hs⟩
      unfold frValid at h
      rw [vpRun_iff] at h
      rcases h with ⟨h, _⟩ | ⟨_, _, hu, _⟩
      · cases h
      · exact hu
  · intro h
    unfold frValid
    rw [vpRun_iff]
    rcases h with h | ⟨d, hd, hu, hno, hp⟩
    · exact Or.inl ⟨h, by simp⟩
    · refine Or.inr ⟨d, hd, hu, ?_⟩
      have hs := frChecks_sem .missing a hc
      simp only [decide_true] at hs ⊢
      have hlen : (frChecks .missing a).length ≤ 1 := by
        unfold frChecks
        simp only [List.length_append, vpOpt_length, hc, Option.toList_none, List.length_nil]
        unfold attributeCount at h1
        omega
      cases hcs : frChecks .missing a with
      | nil => exact absurd ((frChecks_nil .missing a).1 hcs) hno
      | cons c cs =>
        rw [hcs] at hlen hs
        have : cs = [] := List.eq_nil_of_length_eq_zero (by simp at hlen; simpa using hlen)
        subst this
        cases hfs : frFilters a with
        | nil => rw [hfs] at hs; cases hs
        | cons f fs =>
          rw [hfs] at hs
          cases hs with
          | cons hx hy =>
            cases hy
            rw [vpLoop_missing [] hx]
            intro p hpd
            rw [Bool.eq_false_iff]
            intro hf
            apply hp p hpd
            rw [← frFilters_iff, hfs]
            intro g hg
            rw [List.mem_singleton.1 hg]
            exact hf

/-! ### Communities -/

theorem vpCommLoop_pass (st : VpState) (ok : String → Bool) (v : List (String × String)) :
    (vpCommLoop (P := P) st ok v = .pass ∨ vpCommLoop (P := P) st ok v = .fail) ∧
    (vpCommLoop (P := P) st ok v = .pass ↔
      ∀ c ∈ v, c.1 ∈ vpCommKw ∧ (st = .present → ok c.1 = true) ∧ (st = .missing → ok c.1 = false)) := by
  induction v with
  | nil => simp [vpCommLoop]
  | cons c r ih =>
    unfold vpCommLoop
    by_cases h1 : (!vpCommKw.contains c.1) = true
    · rw [if_pos h1]
      refine ⟨Or.inr rfl, ⟨fun h => (nomatch h), fun h => ?_⟩⟩
      have := (h c List.mem_cons_self).1
      rw [← List.contains_iff_mem] at this
      rw [this] at h1
      cases h1
    · rw [if_neg h1]
      have hk : c.1 ∈ vpCommKw := by
        rw [← List.contains_iff_mem]
        simpa using h1
      by_cases h2 : (decide (st = .present) && !ok c.1) = true
      · rw [if_pos h2]
        refine ⟨Or.inr rfl, ⟨fun h => (nomatch h), fun h => ?_⟩⟩
        simp only [Bool.and_eq_true, decide_eq_true_eq, Bool.not_eq_true'] at h2
        have := (h c List.mem_cons_self).2.1 h2.1
        rw [h2.2] at this
        cases this
      · rw [if_neg h2]
        by_cases h3 : (decide (st = .missing) && ok c.1) = true
        · rw [if_pos h3]
          refine ⟨Or.inr rfl, ⟨fun h => (nomatch h), fun h => ?_⟩⟩
          simp only [Bool.and_eq_true, decide_eq_true_eq] at h3
          have := (h c List.mem_cons_self).2.2 h3.1
          rw [h3.2] at this
          cases this
        · rw [if_neg h3]
          refine ⟨ih.1, ih.2.trans ?_⟩
          simp only [List.mem_cons, forall_eq_or_imp]
          refine ⟨fun h => ⟨⟨hk, fun hs => ?_, fun hs => ?_⟩, h⟩, fun h => h.2⟩
          · simpa [hs] using h2
          · simpa [hs] using h3

/-- The loop with filters before a check that ends the validation -/
theorem vpLoop_prefix {cs : List (List P → VpOut P)} {fs : List (P → Bool)} (h : List.Forall₂ (VpSem false) cs fs) (c : List P → VpOut P)
    (hc : ∀ d, c d = .pass ∨ c d = .fail) (r : List (List P → VpOut P)) (d : List P) :
    vpLoop false (cs ++ c :: r) d = true ↔
      (cs = [] ∨ ∃ p ∈ d, ∀ f ∈ fs, f p = true) ∧ c (d.filter (fun p => fs.all (fun f => f p))) = .pass := by
  induction h generalizing d with
  | nil =>
    have : d.filter (fun p => ([] : List (P → Bool)).all (fun f => f p)) = d := by simp
    rw [this]
    simp only [List.nil_append, true_or, true_and]
    unfold vpLoop
    rcases hc d with h | h
    · rw [h]; simp
    · rw [h]; simp
  | @cons c' f cs fs hs ht ih =>
    have hff : d.filter (fun p => (f :: fs).all (fun f => f p)) = (d.filter f).filter (fun p => fs.all (fun f => f p)) := by
      rw [List.filter_filter]
      congr 1
      funext p
      simp [Bool.and_comm]
    have hmem : (∃ p ∈ d, ∀ g ∈ f :: fs, g p = true) ↔ ∃ p ∈ d.filter f, ∀ g ∈ fs, g p = true := by
      constructor
      · rintro ⟨p, hp, hg⟩
        exact ⟨p, List.mem_filter.2 ⟨hp, hg f List.mem_cons_self⟩, fun g hg' => hg g (List.mem_cons_of_mem _ hg')⟩
      · rintro ⟨p, hp, hg⟩
        obtain ⟨h1, h2⟩ := List.mem_filter.1 hp
        refine ⟨p, h1, fun g hg' => ?_⟩
        rcases List.mem_cons.1 hg' with rfl | hg'
        · exact h2
        · exact hg g hg'
    rw [hff, hmem]
    simp only [List.cons_ne_nil, false_or]
    rw [List.cons_append]
    unfold vpLoop
    rcases hs d with h | ⟨h, h0, _⟩
    · rw [h]
      simp only
      by_cases he : d.filter f = []
      · rw [if_pos (by simp [he]), he]
        simp
      · rw [if_neg (by simpa using he)]
        simp only [Bool.false_eq_true, if_false]
        rw [ih]
        cases ht with
        | nil =>
          obtain ⟨x, hx⟩ := List.exists_mem_of_ne_nil _ he
          have hex : ∃ p ∈ d.filter f, ∀ g ∈ ([] : List (P → Bool)), g p = true := ⟨x, hx, fun _ h => (nomatch h)⟩
          simp only [true_or, true_and, hex]
        | cons _ _ => simp
    · rw [h, h0]
      simp

theorem frCommOk_iff (d : List FrPath) (v : List (String × String)) (hv : (v.map (·.1)).Nodup) (c : String × String) (hc : c ∈ v) :
    frCommOk d v c.1 = true ↔ ∃ p ∈ d, ∃ y, (c.1, y) ∈ p.comms ∧ TextContains c.2 y := by
  unfold frCommOk TextContains
  simp only [List.any_eq_true, Bool.and_eq_true, beq_iff_eq, pySubstr_iff]
  constructor
  · rintro ⟨p, hp, x, hx, hxc, y, hy, hyc, a, b, hab⟩
    have : x = c := eq_of_map_nodup hv hx hc hxc
    subst this
    exact ⟨p, hp, y.2, by rw [← hyc]; exact hy, a, b, hab⟩
  · rintro ⟨p, hp, y, hy, a, b, hab⟩
    exact ⟨p, hp, c, hc, rfl, _, hy, rfl, a, b, hab⟩

/-- C89: a test of communities passes exactly when every community is found in the text of a path that has the attributes checked before communities. -/
theorem C89_frr_community (a : VpArgs) (v : List (String × String)) (hc : a.community = some v) (hv : (v.map (·.1)).Nodup) (t : Option (List FrPath)) :
    frValid .present a t = true ↔ ∃ d, t = some d ∧ a.unknown = false ∧
      (NoAttributes (EarlyAttributes a) ∨ ∃ p ∈ d, FrMatches (EarlyAttributes a) p) ∧
      ∀ c ∈ v, c.1 ∈ ["community", "largeCommunity", "extendedCommunity"] ∧
        ∃ p ∈ d, FrMatches (EarlyAttributes a) p ∧ ∃ y, (c.1, y) ∈ p.comms ∧ TextContains c.2 y := by
  unfold frValid
  have hs := frChecks_sem .present (EarlyAttributes a) rfl
  have he : ∃ r, frChecks .present a = frChecks .present (EarlyAttributes a) ++ frComm .present v :: r := by
    refine ⟨vpOpt a.asElements (frAsElements .present) ++ vpOpt a.aspath (frAspath .present) ++
      vpOpt a.locpref (fun v d => .data (d.filter (fun p => p.locpref == some v))) ++
      vpOpt a.med (fun v d => .data (d.filter (fun p => p.med == some v))), ?_⟩
    unfold frChecks EarlyAttributes
    rw [hc]
    simp [vpOpt]
  obtain ⟨r, hr⟩ := he
  have hf : decide (VpState.present = .missing) = false := by decide
  rw [hf] at hs ⊢
  rw [vpRun_iff, hr]
  have hp : ∀ d, frComm .present v d = .pass ∨ frComm .present v d = .fail := fun d => (vpCommLoop_pass _ _ v).1
  simp only [Bool.false_eq_true, and_false, false_or, vpLoop_prefix hs _ hp, frChecks_nil, frFilters_iff]
  refine exists_congr (fun d => and_congr_right (fun _ => and_congr_right (fun _ => and_congr_right (fun _ => ?_))))
  unfold frComm
  rw [(vpCommLoop_pass _ _ v).2]
  refine forall_congr' (fun c => forall_congr' (fun hcv => ?_))
  rw [frCommOk_iff _ v hv c hcv]
  have hmem : ∀ p, p ∈ d.filter (fun p => (frFilters (EarlyAttributes a)).all (fun f => f p)) ↔ p ∈ d ∧ FrMatches (EarlyAttributes a) p := by
    intro p
    rw [List.mem_filter, ← frFilters_iff, List.all_eq_true]
  simp only [hmem, true_implies, and_assoc]
  constructor
  · rintro ⟨h1, h2, _⟩
    exact ⟨h1, h2⟩
  · rintro ⟨h1, h2⟩
    exact ⟨h1, h2, fun h => (nomatch h)⟩

/-- C89: a test of communities that should not be there (without other attributes) passes exactly when no path has any of them. -/
theorem C89_frr_community_missing (a : VpArgs) (v : List (String × String)) (hc : a.community = some v) (hv : (v.map (·.1)).Nodup)
    (ha : NoAttributes (EarlyAttributes a)) (t : Option (List FrPath)) :
    frValid .missing a t = true ↔ t = none ∨ ∃ d, t = some d ∧ a.unknown = false ∧
      ∀ c ∈ v, c.1 ∈ ["community", "largeCommunity", "extendedCommunity"] ∧ ∀ p ∈ d, ∀ y, (c.1, y) ∈ p.comms → ¬ TextContains c.2 y := by
  have he : ∃ r, frChecks .missing a = frComm .missing v :: r := by
    refine ⟨vpOpt a.asElements (frAsElements .missing) ++ vpOpt a.aspath (frAspath .missing) ++
      vpOpt a.locpref (fun v d => .data (d.filter (fun p => p.locpref == some v))) ++
      vpOpt a.med (fun v d => .data (d.filter (fun p => p.med == some v))), ?_⟩
    have h0 := ha
    simp only [NoAttributes, EarlyAttributes] at h0
    unfold frChecks
    rw [hc, h0.1, h0.2.1, h0.2.2.1, h0.2.2.2.1]
    simp [vpOpt]
  obtain ⟨r, hr⟩ := he
  unfold frValid
  rw [vpRun_iff, hr]
  simp only [decide_true, and_true]
  refine or_congr_right (exists_congr (fun d => and_congr_right (fun _ => and_congr_right (fun _ => ?_))))
  have hl : vpLoop true (frComm .missing v :: r) d = true ↔ frComm .missing v d = .pass := by
    unfold vpLoop
    rcases (vpCommLoop_pass (P := FrPath) .missing (frCommOk d v) v).1 with h | h
    · have : frComm .missing v d = .pass := h
      rw [this]; simp
    · have : frComm .missing v d = .fail := h
      rw [this]; simp
  rw [hl]
  unfold frComm
  rw [(vpCommLoop_pass _ _ v).2]
  refine forall_congr' (fun c => forall_congr' (fun hcv => ?_))
  have hok : (frCommOk d v c.1 = false) ↔ ∀ p ∈ d, ∀ y, (c.1, y) ∈ p.comms → ¬ TextContains c.2 y := by
    rw [Bool.eq_false_iff, ne_eq, frCommOk_iff d v hv c hcv]
    constructor
    · intro h p hp y hy ht
      exact h ⟨p, hp, y, hy, ht⟩
    · rintro h ⟨p, hp, y, hy, ht⟩
      exact h p hp y hy ht
  rw [← hok]
  constructor
  · rintro ⟨h1, _, h2⟩
    exact ⟨h1, h2 rfl⟩
  · rintro ⟨h1, h2⟩
    exact ⟨h1, fun h => (nomatch h), fun _ => h2⟩

/-! ### EOS -/

/-- Filters used in EOS validation -/
def eoFilters (a : VpArgs) : List (EoPath → Bool) :=
  vpOptF a.peer (fun v p => p.peerAddr == v || p.peerId == v) ++
  vpOptF a.nh (fun v p => p.nextHop == vpHost v) ++
  vpOptF a.best (fun v p => p.active == some v) ++
  vpOptF a.clusterid (fun v p => p.detail.any (fun x => pySubstr v.toList x.cluster.toList)) ++
  vpOptF a.asElements eoAsOk ++
  vpOptF a.aspath (fun v p => p.aspath == some v) ++
  vpOptF a.locpref (fun v p => p.locpref == some v) ++
  vpOptF a.med (fun v p => p.med == some v)

theorem eoChecks_sem (st : VpState) (a : VpArgs) (hc : a.community = none) : List.Forall₂ (VpSem (st = .missing)) (eoChecks st a) (eoFilters a) := by
  unfold eoChecks eoFilters
  rw [hc]
  simp only [vpOpt, List.append_nil]
  refine vp_append (vp_append (vp_append (vp_append (vp_append (vp_append (vp_append ?_ ?_) ?_) ?_) ?_) ?_) ?_) ?_
  · exact vpOpt_sem _ (fun v => vp_filter_sem _ _)
  · exact vpOpt_sem _ (fun v => vp_strict_sem _ _)
  · exact vpOpt_sem _ (fun v => vp_filter_sem _ _)
  · exact vpOpt_sem _ (fun v => vp_strict_sem _ _)
  · exact vpOpt_sem _ (fun v => vp_strict_sem _ _)
  · exact vpOpt_sem _ (fun v => vp_strict_sem _ _)
  · exact vpOpt_sem _ (fun v => vp_filter_sem _ _)
  · exact vpOpt_sem _ (fun v => vp_filter_sem _ _)

theorem eoLeft_iff (v : List Nat) (s : String) : (eoLeft v s).isEmpty = true ↔ ∀ n ∈ v, (toString n).toList ∈ splitOnChar ' ' s.toList := by
  unfold eoLeft
  rw [List.isEmpty_iff, List.eq_nil_iff_forall_not_mem]
  simp only [mem_removeAll, not_and, Classical.not_not, List.mem_map, forall_exists_index, and_imp, forall_apply_eq_imp_iff₂]
  refine forall_congr' (fun n => forall_congr' (fun _ => ?_))
  constructor
  · rintro ⟨l, hl, he⟩
    rw [← he, String.toList_ofList]
    exact hl
  · intro h
    exact ⟨_, h, String.ofList_toList⟩

theorem eoFilters_iff (a : VpArgs) (p : EoPath) : (∀ f ∈ eoFilters a, f p = true) ↔ EoMatches a p := by
  unfold eoFilters
  simp only [List.forall_mem_append, vpOptF_mem, beq_iff_eq, Bool.or_eq_true]
  have hnh : ∀ v, p.nextHop = vpHost v ↔ HostPart v p.nextHop := fun v => ⟨fun h => (vpHost_iff v _).1 h.symm, fun h => ((vpHost_iff v _).2 h).symm⟩
  have hcl : ∀ v : String, p.detail.any (fun x => pySubstr v.toList x.cluster.toList) = true ↔ ∃ x, p.detail = some x ∧ TextContains v x.cluster := by
    intro v
    cases p.detail with
    | none => simp
    | some x => simp [pySubstr_iff, TextContains]
  have has : ∀ v, eoAsOk v p = true ↔ ∃ s, p.aspath = some s ∧ ∀ n ∈ v, (toString n).toList ∈ splitOnChar ' ' s.toList := by
    intro v
    unfold eoAsOk
    cases p.aspath with
    | none => simp
    | some s => simp only [eoLeft_iff, Option.some.injEq, exists_eq_left']
  simp only [hnh, hcl, has]
  constructor
  · rintro ⟨⟨⟨⟨⟨⟨⟨h1, h2⟩, h3⟩, h4⟩, h5⟩, h6⟩, h7⟩, h8⟩
    exact ⟨h1, h2, h3, h4, h5, h6, h7, h8⟩
  · rintro ⟨h1, h2, h3, h4, h5, h6, h7, h8⟩
    exact ⟨⟨⟨⟨⟨⟨⟨h1, h2⟩, h3⟩, h4⟩, h5⟩, h6⟩, h7⟩, h8⟩

theorem eoChecks_nil (st : VpState) (a : VpArgs) : eoChecks st a = [] ↔ NoAttributes a := by
  unfold eoChecks NoAttributes
  simp only [List.append_eq_nil_iff, vpOpt_nil, and_assoc]

/-- C89: a test of a prefix that should be in the EOS table passes exactly when the prefix in the default VRF has a path with all requested attributes. -/
theorem C89_eos_present (st : VpState) (hst : st ≠ .missing) (a : VpArgs) (hc : a.community = none) (vrf pfx : String) (t : EoTable) :
    eoValid st a vrf pfx t = true ↔
      ∃ x d, t.lookup "default" = some x ∧ x.lookup pfx = some d ∧ a.unknown = false ∧ (NoAttributes a ∨ ∃ p ∈ d, EoMatches a p) := by
  unfold eoValid eoLookup
  have hs := eoChecks_sem st a hc
  have hf : decide (st = .missing) = false := by simpa using hst
  rw [hf] at hs ⊢
  cases t.lookup "default" with
  | none => simp
  | some x =>
    simp only [Option.map_some, vpRun_iff, vpLoop_present hs, eoChecks_nil, eoFilters_iff, Bool.false_eq_true, and_false, false_or, Option.some.injEq,
      exists_and_left, exists_eq_left']

/-- C89: when a test of a prefix that should not be in the EOS table passes, the default VRF has no path with all requested attributes. -/
theorem C89_eos_missing_sound (a : VpArgs) (hc : a.community = none) (vrf pfx : String) (t : EoTable) (h : eoValid .missing a vrf pfx t = true) :
    ∀ x d, t.lookup "default" = some x → x.lookup pfx = some d → ¬ NoAttributes a ∧ ∀ p ∈ d, ¬ EoMatches a p := by
  intro x d hx hd
  unfold eoValid eoLookup at h
  rw [hx] at h
  simp only [Option.map_some, hd, decide_true] at h
  have hs := eoChecks_sem .missing a hc
  simp only [decide_true] at hs
  rw [vpRun_iff] at h
  rcases h with ⟨h, _⟩ | ⟨d', hd', _, hl⟩
  · cases h
  · cases hd'
    refine ⟨fun hno => ?_, fun p hp hm => ?_⟩
    · rw [(eoChecks_nil .missing a).2 hno] at hl
      simp [vpLoop] at hl
    · rw [← eoFilters_iff] at hm
      cases hcs : eoChecks .missing a with
      | nil => rw [hcs] at hl; simp [vpLoop] at hl
      | cons c cs =>
        rw [hcs] at hs hl
        cases hfs : eoFilters a with
        | nil => rw [hfs] at hs; cases hs
        | cons f fs =>
          rw [hfs] at hs hm
          cases hs with
          | cons h1 _ =>
            have := (vpLoop_missing cs h1 d).1 hl p hp
            rw [hm f List.mem_cons_self] at this
            cases this

theorem eoHas_iff (c v : String) (p : EoPath) : eoHas c v p = true ↔ EoCommunity (c, v) p := by
  unfold eoHas EoCommunity eoAttr
  cases p.detail with
  | none => simp
  | some x =>
    simp only [List.any_eq_true, Bool.and_eq_true, beq_iff_eq, List.contains_iff_mem]
    by_cases h1 : c = "community"
    · subst h1
      simp only [if_true, Option.some.injEq]
      constructor
      · rintro ⟨y, hy, hk, hv⟩
        exact ⟨x, y.2, rfl, hv, Or.inl ⟨trivial, by rw [hk]; exact hy⟩⟩
      · rintro ⟨x', l, hx, hv, ⟨_, hm⟩ | ⟨h, _⟩⟩
        · cases hx
          exact ⟨_, hm, rfl, hv⟩
        · exact absurd h (by decide)
    · rw [if_neg h1]
      by_cases h2 : c = "largeCommunity"
      · subst h2
        simp only [if_true, Option.some.injEq]
        constructor
        · rintro ⟨y, hy, hk, hv⟩
          exact ⟨x, y.2, rfl, hv, Or.inr ⟨trivial, by rw [hk]; exact hy⟩⟩
        · rintro ⟨x', l, hx, hv, ⟨h, _⟩ | ⟨_, hm⟩⟩
          · exact absurd h (by decide)
          · cases hx
            exact ⟨_, hm, rfl, hv⟩
      · rw [if_neg h2]
        simp [h1, h2]

theorem eoComm_pass (v : List (String × String)) (hv : (v.map (·.1)).Nodup) (d : List EoPath) :
    (eoComm .present v d = .pass ∨ eoComm .present v d = .fail) ∧ (eoComm .present v d = .pass ↔ ∀ c ∈ v, ∃ p ∈ d, EoCommunity c p) := by
  unfold eoComm
  have hok : ∀ c ∈ v, (d.any (fun p => v.any (fun x => x.1 == c.1 && eoHas c.1 x.2 p)) = true ↔ ∃ p ∈ d, EoCommunity c p) := by
    intro c hc
    simp only [List.any_eq_true, Bool.and_eq_true, beq_iff_eq, eoHas_iff]
    constructor
    · rintro ⟨p, hp, x, hx, hxc, h⟩
      have : x = c := eq_of_map_nodup hv hx hc hxc
      subst this
      exact ⟨p, hp, h⟩
    · rintro ⟨p, hp, h⟩
      exact ⟨p, hp, c, hc, rfl, h⟩
  have hattr : ∀ c p, EoCommunity c p → (eoAttr c.1).isSome = true ∧ c.1 ∈ vpCommKw := by
    rintro c p ⟨x, l, _, _, ⟨h, _⟩ | ⟨h, _⟩⟩ <;> rw [h] <;> decide
  by_cases hf : (d.any (fun p => p.detail.isSome) && v.any (fun x => (eoAttr x.1).isNone)) = true
  · rw [if_pos hf]
    refine ⟨Or.inr rfl, ⟨fun h => (nomatch h), fun h => ?_⟩⟩
    simp only [Bool.and_eq_true, List.any_eq_true] at hf
    obtain ⟨_, c, hc, hn⟩ := hf
    obtain ⟨p, _, hp⟩ := h c hc
    have := (hattr c p hp).1
    rw [Option.isNone_iff_eq_none] at hn
    rw [hn] at this
    cases this
  · rw [if_neg hf]
    have hk := vpCommLoop_pass (P := EoPath) .present (fun c => d.any (fun p => v.any (fun x => x.1 == c && eoHas c x.2 p))) v
    refine ⟨hk.1, hk.2.trans ?_⟩
    refine forall_congr' (fun c => forall_congr' (fun hc => ?_))
    rw [hok c hc]
    constructor
    · rintro ⟨_, h, _⟩
      exact h rfl
    · rintro ⟨p, hp, h⟩
      exact ⟨(hattr c p h).2, fun _ => ⟨p, hp, h⟩, fun h => (nomatch h)⟩

/-- C89: a test of communities on EOS passes exactly when every community belongs to a path that has the attributes checked before communities. -/
theorem C89_eos_community (a : VpArgs) (v : List (String × String)) (hc : a.community = some v) (hv : (v.map (·.1)).Nodup) (vrf pfx : String) (t : EoTable) :
    eoValid .present a vrf pfx t = true ↔ ∃ x d, t.lookup "default" = some x ∧ x.lookup pfx = some d ∧ a.unknown = false ∧
      (NoAttributes (EarlyAttributes a) ∨ ∃ p ∈ d, EoMatches (EarlyAttributes a) p) ∧
      ∀ c ∈ v, ∃ p ∈ d, EoMatches (EarlyAttributes a) p ∧ EoCommunity c p := by
  unfold eoValid eoLookup
  have hs := eoChecks_sem .present (EarlyAttributes a) rfl
  have he : ∃ r, eoChecks .present a = eoChecks .present (EarlyAttributes a) ++ eoComm .present v :: r := by
    refine ⟨vpOpt a.asElements (fun v d => vpStrict .present (d.filter (eoAsOk v))) ++
      vpOpt a.aspath (fun v d => vpStrict .present (d.filter (fun p => p.aspath == some v))) ++
      vpOpt a.locpref (fun v d => .data (d.filter (fun p => p.locpref == some v))) ++
      vpOpt a.med (fun v d => .data (d.filter (fun p => p.med == some v))), ?_⟩
    unfold eoChecks EarlyAttributes
    rw [hc]
    simp [vpOpt]
  obtain ⟨r, hr⟩ := he
  have hf : decide (VpState.present = .missing) = false := by decide
  rw [hf] at hs ⊢
  cases t.lookup "default" with
  | none => simp
  | some x =>
    simp only [Option.map_some, vpRun_iff, hr, Bool.false_eq_true, and_false, false_or, vpLoop_prefix hs _ (fun d => (eoComm_pass v hv d).1), eoChecks_nil,
      eoFilters_iff, Option.some.injEq, exists_and_left, exists_eq_left', (eoComm_pass v hv _).2]
    refine exists_congr (fun d => and_congr_right (fun _ => and_congr_right (fun _ => and_congr_right (fun _ => ?_))))
    refine forall_congr' (fun c => forall_congr' (fun _ => exists_congr (fun p => ?_)))
    rw [List.mem_filter, List.all_eq_true, eoFilters_iff, and_assoc]

/-! ### Examples and defects -/

/-- A path -/
def frExPath (peer : String) (lp : Int) (comm : String) : FrPath :=
  ⟨peer, ["10.0.0.1"], some true, none, [("community", comm)], "65000 65001", [[65000, 65001]], some lp, none⟩

example : frValid .present { peer := some "1.1.1.1", nh := some "10.0.0.1/30", asElements := some [65001], locpref := some 200 }
      (some [frExPath "1.1.1.1" 100 "65000:1", frExPath "1.1.1.1" 200 "65000:1"]) = true ∧
    frValid .present { peer := some "1.1.1.1", locpref := some 300 } (some [frExPath "1.1.1.1" 100 "65000:1"]) = false ∧
    frValid .missing { locpref := some 300 } (some [frExPath "1.1.1.1" 100 "65000:1"]) = true ∧
    attributeCount { locpref := some 300 } = 1 := by decide

/-- C89 defect: a test that a path with two attributes is missing fails when there is a path with the first one. -/
theorem C89_missing_two :
    ∃ (a : VpArgs) (d : List FrPath), a.community = none ∧ attributeCount a = 2 ∧ (∀ p ∈ d, ¬ FrMatches a p) ∧ frValid .missing a (some d) = false := by
  refine ⟨{ peer := some "1.1.1.1", locpref := some 200 }, [frExPath "1.1.1.1" 100 "65000:1"], rfl, rfl, ?_, by decide⟩
  intro p hp h
  rw [List.mem_singleton.1 hp] at h
  have := h.locpref 200 rfl
  exact absurd this (by decide)

/-- C89 defect: attributes after communities are ignored. -/
theorem C89_community_skips :
    ∃ (a : VpArgs) (d : List FrPath), (∀ p ∈ d, ¬ FrMatches { a with community := none } p) ∧ frValid .present a (some d) = true := by
  refine ⟨{ community := some [("community", "65000:1")], locpref := some 200 }, [frExPath "1.1.1.1" 100 "65000:1"], ?_, by decide⟩
  intro p hp h
  rw [List.mem_singleton.1 hp] at h
  have := h.locpref 200 rfl
  exact absurd this (by decide)

/-- C89 defect: a community that is a part of another community is found. -/
theorem C89_community_substring :
    frValid .present { community := some [("community", "65000:1")] } (some [frExPath "1.1.1.1" 100 "65000:100 65000:200"]) = true := by decide

/-- C89 defect: communities of one prefix are found on different paths. -/
theorem C89_community_paths :
    ∃ d : List FrPath, (¬ ∃ p ∈ d, p.comms.length = 2) ∧
      frValid .present { community := some [("community", "65000:1"), ("largeCommunity", "65000:1:1")] } (some d) = true :=
  ⟨[frExPath "1.1.1.1" 100 "65000:1", { frExPath "1.1.1.1" 100 "" with comms := [("largeCommunity", "65000:1:1")] }], by decide, by decide⟩

/-- C89 defect: the test on EOS ignores the VRF. -/
theorem C89_eos_vrf :
    ∃ (t : EoTable) (pfx : String), t.lookup "red" = some [(pfx, [])] ∧ eoValid .present {} "red" pfx t = false ∧ eoValid .missing {} "red" pfx t = true :=
  ⟨[("default", []), ("red", [("10.0.0.0/24", [])])], "10.0.0.0/24", rfl, by decide, by decide⟩

end Netlab
