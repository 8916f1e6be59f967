import Verif.Lemmas.Sort
/-!
# C13, C54: dependency sort of modules, plugins and custom configurations
-/

namespace Netlab
open Spec

/-- **C13 (sound).**  A successful dependency sort returns the same objects (nothing lost,
nothing added or duplicated), and no object is listed before an object it depends on. -/
theorem C13_sorted (mods : List String) (dep : String → List String) (out : List String)
    (h : depSort mods dep = some out) :
    out.Perm mods ∧ out.Pairwise (fun a b => b ∉ dep a) := by
  unfold depSort at h
  split at h
  · rename_i hl
    cases h
    refine ⟨List.Perm.refl _, ?_⟩
    match mods, hl with
    | [], _ => exact List.Pairwise.nil
    | [m], _ => exact List.pairwise_singleton _ _
  · obtain ⟨tail, rfl, hp, ho⟩ := depLoop_some dep _ _ _ _ h
    exact ⟨by simpa using hp, by simpa using ho.2⟩

/-- **C13 (complete).**  The sort fails exactly when the objects contain a dependency loop.
In particular it always terminates, and the loop safeguard never rejects an input that can be
sorted. -/
theorem C13_error_iff_loop (mods : List String) (dep : String → List String)
    (hl : 2 ≤ mods.length) :
    depSort mods dep = none ↔ HasLoop mods dep := by
  unfold depSort
  have hlt : ¬ mods.length < 2 := by omega
  rw [if_neg hlt]
  constructor
  · intro h
    obtain ⟨S, h1, h2, h3⟩ := depLoop_none dep _ _ _ (Nat.le_refl _) h
    exact hasLoop_of_closed h1 h2 h3
  · intro h
    obtain ⟨S, h1, h2, h3⟩ := closed_of_hasLoop h
    exact depLoop_none_of_closed dep S h1 h3 _ _ _ h2

/-- **C13 (order kept).**  Objects without dependencies among themselves stay in the order in
which they were listed. -/
theorem C13_independent_unchanged (mods : List String) (dep : String → List String)
    (h : ∀ m ∈ mods, ∀ r ∈ dep m, r ∉ mods) : depSort mods dep = some mods := by
  unfold depSort
  split
  · rfl
  · rename_i hl
    have hs : mods.filter (fun m => (dep m).any (fun r => mods.contains r)) = [] := by
      rw [List.filter_eq_nil_iff]
      intro m hm hany
      obtain ⟨r, hr, hr2⟩ := List.any_eq_true.1 hany
      exact h m hm r hr (by simpa using hr2)
    have hn : mods.filter (fun m => !(dep m).any (fun r => mods.contains r)) = mods := by
      rw [List.filter_eq_self]
      intro m hm
      rw [Bool.not_eq_true', List.any_eq_false]
      intro r hr hc
      exact h m hm r hr (by simpa using hc)
    cases mods with
    | nil => simp at hl
    | cons a l =>
      rw [List.length_cons]
      unfold depLoop
      simp only [List.isEmpty_cons, Bool.false_eq_true, if_false, depRound_eq, hs, hn]
      unfold depLoop
      simp

private theorem depLoop_idem (dep : String → List String) (w : Nat) :
    ∀ (mods out tail : List String), depLoop dep w mods out = some (out ++ tail) →
      ∀ out', depLoop dep w tail out' = some (out' ++ tail) := by
  induction w with
  | zero =>
    intro mods out tail h out'
    unfold depLoop at h
    split at h
    · have : tail = [] := by simpa using h
      subst this
      unfold depLoop
      simp
    · simp at h
  | succ w ih =>
    intro mods out tail h out'
    have hfull := h
    unfold depLoop at h
    split at h
    · have : tail = [] := by simpa using h
      subst this
      unfold depLoop
      simp
    · rename_i hne
      simp only [depRound_eq] at h
      obtain ⟨tl, htl, hp, -⟩ := depLoop_some _ _ _ _ _ h
      obtain ⟨t2, ht2, hp2, -⟩ := depLoop_some _ _ _ _ _ hfull
      have e2 : tail = t2 := List.append_cancel_left ht2
      subst e2
      have e1 : tail = mods.filter (fun m => !(dep m).any (fun r => mods.contains r)) ++ tl := by
        apply List.append_cancel_left (as := out)
        rw [htl, List.append_assoc]
      rw [htl] at h
      have hrec := ih _ _ _ h
      have hcont : ∀ r, tail.contains r = mods.contains r := by
        intro r
        have := hp2.mem_iff (a := r)
        by_cases hr : r ∈ mods <;> simp [this, hr]
      have hsk : tail.filter (fun m => (dep m).any (fun r => tail.contains r)) = tl := by
        simp only [hcont]
        rw [e1, List.filter_append]
        have a1 : (mods.filter (fun m => !(dep m).any (fun r => mods.contains r))).filter
            (fun m => (dep m).any (fun r => mods.contains r)) = [] := by
          rw [List.filter_eq_nil_iff]
          intro m hm
          simpa using (List.mem_filter.1 hm).2
        have a2 : tl.filter (fun m => (dep m).any (fun r => mods.contains r)) = tl := by
          rw [List.filter_eq_self]
          intro m hm
          exact (List.mem_filter.1 (hp.mem_iff.1 hm)).2
        rw [a1, a2, List.nil_append]
      have hnw : tail.filter (fun m => !(dep m).any (fun r => tail.contains r)) =
          mods.filter (fun m => !(dep m).any (fun r => mods.contains r)) := by
        simp only [hcont]
        conv_lhs => rw [e1, List.filter_append]
        have a2 : tl.filter (fun m => !(dep m).any (fun r => mods.contains r)) = [] := by
          rw [List.filter_eq_nil_iff]
          intro m hm
          have := (List.mem_filter.1 (hp.mem_iff.1 hm)).2
          simpa using this
        rw [a2, List.append_nil, List.filter_filter]
        simp
      unfold depLoop
      split
      · rename_i he
        rw [List.isEmpty_iff] at he
        simp [he]
      · simp only [depRound_eq, hsk, hnw]
        rw [hrec, List.append_assoc, ← e1]

/-- **C13 (stable).**  Sorting a sorted list again does not change it. -/
theorem C13_idempotent (mods : List String) (dep : String → List String) (out : List String)
    (h : depSort mods dep = some out) : depSort out dep = some out := by
  have hlen := (C13_sorted mods dep out h).1.length_eq
  unfold depSort at h ⊢
  rw [hlen]
  split at h
  · rename_i hl
    rw [if_pos hl]
  · rename_i hl
    rw [if_neg hl]
    simpa using depLoop_idem dep _ mods [] out (by simpa using h) []

/-- **C13 (modules).**  The sorted list of modules contains every known module of the original
list, and a module that another module requires (or has to follow) precedes it. -/
theorem C13_modules (mods : List String) (params : String → Option ModDef) (out : List String)
    (h : sortModuleList mods params = some out) :
    out.Perm (mods.filter (fun m => (params m).isSome)) ∧
    out.Pairwise (fun a b => ∀ d, params a = some d → b ∉ d.requires ∧ b ∉ d.after) := by
  obtain ⟨h1, h2⟩ := C13_sorted _ _ _ h
  refine ⟨h1, h2.imp ?_⟩
  intro a b hab d hd
  simp only [hd, List.mem_append] at hab
  exact ⟨fun hc => hab (Or.inl hc), fun hc => hab (Or.inr hc)⟩

/-- **C13 (plugins).**  Same for plugins: each plugin runs after the listed plugins it requires
or has to follow. -/
theorem C13_plugins (plugins : List String) (req after : String → List String)
    (out : List String) (h : sortPlugins plugins req after = some out) :
    out.Perm plugins ∧ out.Pairwise (fun a b => b ∉ req a ∧ b ∉ after a) := by
  unfold sortPlugins at h
  split at h
  · rename_i he
    cases h
    rw [List.isEmpty_iff] at he
    subst he
    exact ⟨List.Perm.refl _, List.Pairwise.nil⟩
  · obtain ⟨h1, h2⟩ := C13_sorted _ _ _ h
    refine ⟨h1, h2.imp ?_⟩
    intro a b hab
    simp only [List.mem_append] at hab
    exact ⟨fun hc => hab (Or.inl hc), fun hc => hab (Or.inr hc)⟩

/-- Module dependencies used in the examples. -/
private def exDep : String → List String
  | "evpn" => ["bgp", "vlan"]
  | "vxlan" => ["vlan"]
  | _ => []

example : depSort ["evpn", "vxlan", "bgp", "vlan", "ospf"] exDep =
    some ["bgp", "vlan", "ospf", "evpn", "vxlan"] := by decide +kernel
example : depSort ["a", "b", "c"] (fun x => if x = "a" then ["b"] else if x = "b" then ["a"] else [])
    = none := by decide +kernel

/-! ### C54: order of custom configurations -/

theorem mem_precedingConfigs {nodes : List (List String)} {a b : String}
    (hnd : ∀ cfg ∈ nodes, cfg.Nodup) :
    a ∈ precedingConfigs nodes b ↔ ∃ cfg ∈ nodes, [a, b].Sublist cfg := by
  unfold precedingConfigs
  simp only [List.mem_flatMap]
  constructor
  · rintro ⟨cfg, hc, h⟩
    refine ⟨cfg, hc, ?_⟩
    split at h
    · rename_i hb
      have hb : b ∈ cfg := by simpa using hb
      have hi : cfg.idxOf b < cfg.length := List.idxOf_lt_length_iff.2 hb
      have hd : cfg = cfg.take (cfg.idxOf b) ++ (cfg.drop (cfg.idxOf b)) := (List.take_append_drop _ _).symm
      rw [hd]
      have h1 : [a].Sublist (cfg.take (cfg.idxOf b)) := List.singleton_sublist.2 h
      have h2 : [b].Sublist (cfg.drop (cfg.idxOf b)) := by
        rw [List.singleton_sublist, List.drop_eq_getElem_cons hi, List.getElem_idxOf]
        exact List.mem_cons_self
      exact h1.append h2
    · simp at h
  · rintro ⟨cfg, hc, h⟩
    refine ⟨cfg, hc, ?_⟩
    have hb : b ∈ cfg := h.subset (by simp)
    rw [if_pos (by simpa using hb)]
    obtain ⟨r₁, r₂, he, ha, hbr⟩ := List.cons_sublist_iff.1 h
    have hbr : b ∈ r₂ := List.singleton_sublist.1 hbr
    have hnd' := hnd cfg hc
    subst he
    rw [List.nodup_append] at hnd'
    have hbn : b ∉ r₁ := fun hb1 => hnd'.2.2 b hb1 b hbr rfl
    rw [List.idxOf_append_of_notMem hbn, List.take_append]
    refine List.mem_append_left _ ?_
    rw [List.take_of_length_le (by omega)]
    exact ha

/-- **C54 (order).**  The topology-wide list of custom configurations contains exactly the
configurations used by nodes, each of them once, and whenever a node lists `a` before `b`, `a` is
before `b` in the topology-wide list.  `extra` is the list of configurations in any
(unspecified) order. -/
theorem C54_consistent_order (nodes : List (List String)) (extra out : List String)
    (hnd : ∀ cfg ∈ nodes, cfg.Nodup)
    (hex : ∀ c, c ∈ extra ↔ ∃ cfg ∈ nodes, c ∈ cfg) (hexn : extra.Nodup)
    (h : sortExtraConfig nodes extra = some out) :
    out.Nodup ∧ (∀ c, c ∈ out ↔ ∃ cfg ∈ nodes, c ∈ cfg) ∧
    ∀ cfg ∈ nodes, ∀ a b, [a, b].Sublist cfg → [a, b].Sublist out := by
  have key : out.Perm extra ∧ out.Pairwise (fun a b => b ∉ precedingConfigs nodes a) := by
    unfold sortExtraConfig at h
    split at h
    · rename_i he
      cases h
      rw [List.isEmpty_iff] at he
      subst he
      exact ⟨List.Perm.refl _, List.Pairwise.nil⟩
    · exact C13_sorted _ _ _ h
  obtain ⟨hp, ho⟩ := key
  have hout : ∀ c, c ∈ out ↔ ∃ cfg ∈ nodes, c ∈ cfg := fun c => (hp.mem_iff).trans (hex c)
  have hon : out.Nodup := hp.nodup_iff.2 hexn
  refine ⟨hon, hout, ?_⟩
  intro cfg hc a b hab
  have ha : a ∈ out := (hout a).2 ⟨cfg, hc, hab.subset (by simp)⟩
  have hb : b ∈ out := (hout b).2 ⟨cfg, hc, hab.subset (by simp)⟩
  have hne : a ≠ b := by
    have := hab.nodup (hnd cfg hc)
    simpa using this
  obtain ⟨l1, l2, rfl⟩ := List.append_of_mem ha
  have hb' : b ∈ l1 ∨ b ∈ l2 := by
    simp only [List.mem_append, List.mem_cons] at hb
    rcases hb with hb | hb | hb
    · exact Or.inl hb
    · exact absurd hb.symm hne
    · exact Or.inr hb
  rcases hb' with hb | hb
  · exfalso
    rw [List.pairwise_append] at ho
    exact ho.2.2 b hb a (by simp) ((mem_precedingConfigs hnd).2 ⟨cfg, hc, hab⟩)
  · exact List.Sublist.trans ((List.singleton_sublist.2 hb).cons_cons a) (List.sublist_append_right _ _)

/-- **C54 (contradiction).**  With at least two custom configurations the sort fails exactly
when the orders used by the nodes contradict each other: following "listed before on some
node" from some configuration leads back to it. -/
theorem C54_error_iff_contradiction (nodes : List (List String)) (extra : List String)
    (hnd : ∀ cfg ∈ nodes, cfg.Nodup)
    (hex : ∀ c, c ∈ extra ↔ ∃ cfg ∈ nodes, c ∈ cfg) (hl : 2 ≤ extra.length) :
    sortExtraConfig nodes extra = none ↔
      ∃ c, Relation.TransGen (fun x y => ∃ cfg ∈ nodes, [x, y].Sublist cfg) c c := by
  unfold sortExtraConfig
  have hne : ¬ extra.isEmpty = true := by
    intro h; rw [List.isEmpty_iff] at h; subst h; simp at hl
  rw [if_neg hne, C13_error_iff_loop _ _ hl]
  unfold HasLoop
  have conv : ∀ x y, Relation.TransGen (fun a b => b ∈ precedingConfigs nodes a ∧ b ∈ extra) x y ↔
      Relation.TransGen (fun x y => ∃ cfg ∈ nodes, [x, y].Sublist cfg) y x := by
    intro x y
    rw [← Relation.transGen_swap (r := fun x y => ∃ cfg ∈ nodes, [x, y].Sublist cfg)]
    have : (fun a b => b ∈ precedingConfigs nodes a ∧ b ∈ extra) =
        Function.swap (fun x y => ∃ cfg ∈ nodes, [x, y].Sublist cfg) := by
      funext a b
      apply propext
      simp only [Function.swap, mem_precedingConfigs hnd]
      constructor
      · exact fun h => h.1
      · rintro ⟨cfg, hc, hs⟩
        exact ⟨⟨cfg, hc, hs⟩, (hex b).2 ⟨cfg, hc, hs.subset (by simp)⟩⟩
    rw [this]
  constructor
  · rintro ⟨m, -, h⟩
    exact ⟨m, (conv m m).1 h⟩
  · rintro ⟨m, h⟩
    refine ⟨m, ?_, (conv m m).2 h⟩
    obtain ⟨y, ⟨cfg, hc, hs⟩, -⟩ := Relation.TransGen.head'_iff.1 h
    exact (hex m).2 ⟨cfg, hc, hs.subset (by simp)⟩

example : sortExtraConfig [["ospf", "bgp"], ["bgp", "acl"]] ["acl", "bgp", "ospf"] =
    some ["ospf", "bgp", "acl"] := by decide +kernel
example : sortExtraConfig [["a", "b"], ["b", "a"]] ["a", "b"] = none := by decide +kernel

end Netlab
