import Verif.Spec.ReadTopo
import Verif.Props.Settings
import Verif.Props.Asn
import Verif.Props.Nodeset
import Verif.Props.FileMap
import Verif.Props.EvpnNode
/-!
# C107: versions, included files and CLI arguments
-/

namespace Netlab
open Spec

section Versions
variable {V : Type} (lib : PyVersions V)

theorem verHasOp_plain {s : String} {v : V} (h : PlainVersion lib s v) : verHasOp s = false := by
  unfold verHasOp
  rw [List.any_eq_false]
  intro c hc
  have := h.1 c hc
  simp [this.1, this.2.1, this.2.2]

theorem verSpec_plain {s : String} {v : V} (h : PlainVersion lib s v) : verSpec lib s = some (fun x => lib.le v x) := by
  unfold verSpec
  rw [verHasOp_plain lib h, h.2]
  rfl

/-- **C107**: the version of a lab topology (or the default version) is checked if it's specified; the topology is accepted if and only if the version of netlab meets the requirement.
A requirement without an operator is the minimum version. -/
theorem C107_version (current : V) (topo defaults : Option String) :
    ((topo = none ∨ topo = some "") → (defaults = none ∨ defaults = some "") → verCheck lib current topo defaults = .accepted) ∧
    (∀ s v, s ≠ "" → (topo = some s ∨ ((topo = none ∨ topo = some "") ∧ defaults = some s)) → PlainVersion lib s v →
      (verCheck lib current topo defaults = .accepted ↔ lib.le v current = true) ∧ verCheck lib current topo defaults ≠ .invalid) ∧
    (∀ s, s ≠ "" → (topo = some s ∨ ((topo = none ∨ topo = some "") ∧ defaults = some s)) → (verCheck lib current topo defaults = .invalid ↔ verSpec lib s = none)) := by
  have hpick : ∀ s, s ≠ "" → (topo = some s ∨ ((topo = none ∨ topo = some "") ∧ defaults = some s)) → (topo.filter (· != "")).or (defaults.filter (· != "")) = some s := by
    intro s hs h
    rcases h with rfl | ⟨rfl | rfl, rfl⟩ <;> simp [Option.filter, hs]
  refine ⟨?_, ?_, ?_⟩
  · rintro (rfl | rfl) (rfl | rfl) <;> simp [verCheck, Option.filter]
  · intro s v hs h hp
    unfold verCheck
    rw [hpick s hs h]
    simp only [verSpec_plain lib hp]
    by_cases hle : lib.le v current = true
    · rw [if_pos hle]; simp [hle]
    · rw [if_neg hle]; simp [hle]
  · intro s hs h
    unfold verCheck
    rw [hpick s hs h]
    simp only
    cases hv : verSpec lib s with
    | none => simp
    | some p =>
      simp only [reduceCtorEq, iff_false]
      split <;> simp

/-- **C107**: a version with a comparison operator is a requirement: the topology is accepted exactly when the version of netlab meets it. -/
theorem C107_requirement (current : V) (s : String) (hs : s ≠ "") (ho : '=' ∈ s.toList ∨ '>' ∈ s.toList ∨ '<' ∈ s.toList) (defaults : Option String) :
    (∀ p, lib.specifier s = some p → (verCheck lib current (some s) defaults = .accepted ↔ p current = true) ∧ verCheck lib current (some s) defaults ≠ .invalid) ∧
    (lib.specifier s = none → verCheck lib current (some s) defaults = .invalid) := by
  have hop : verHasOp s = true := by
    unfold verHasOp
    rw [List.any_eq_true]
    rcases ho with h | h | h
    · exact ⟨_, h, by decide⟩
    · exact ⟨_, h, by decide⟩
    · exact ⟨_, h, by decide⟩
  have hpick : ((some s).filter (· != "")).or (defaults.filter (· != "")) = some s := by simp [Option.filter, hs]
  unfold verCheck verSpec
  rw [hpick]
  simp only [hop, if_true]
  constructor
  · intro p hp
    rw [hp]
    by_cases hc : p current = true
    · simp [hc]
    · simp [hc]
  · intro hp; rw [hp]

/-- What's known about the best version of topology so far -/
def BestSoFar (current : V) (seen : List String) (best : Option V) : Prop :=
  (∀ v, best = some v → (∃ c ∈ seen, lib.parse c = some v) ∧ lib.le v current = true) ∧
  ∀ c ∈ seen, ∀ v, lib.parse c = some v → lib.le v current = true → ∃ b, best = some b ∧ lib.le v b = true

theorem verBest_spec (ho : VersionOrder lib) (current : V) (cs : List String) (hc : ∀ c ∈ cs, ∃ v, PlainVersion lib c v) : ∀ (seen : List String) (best : Option V), BestSoFar lib current seen best →
    ∃ b, verBest lib current cs best = some b ∧ BestSoFar lib current (seen ++ cs) b := by
  induction cs with
  | nil => intro seen best h; exact ⟨best, rfl, by simpa using h⟩
  | cons c r ih =>
    intro seen best h
    obtain ⟨v, hv⟩ := hc c List.mem_cons_self
    simp only [verBest, verStep, verSpec_plain lib hv]
    have hih := ih (fun c hc' => hc c (List.mem_cons_of_mem _ hc'))
    have happ : seen ++ c :: r = (seen ++ [c]) ++ r := by simp
    rw [happ]
    cases hle : lib.le v current with
    | false =>
      simp only [Bool.not_false, if_true]
      apply hih
      refine ⟨?_, ?_⟩
      · intro w hw
        obtain ⟨⟨c', h1, h2⟩, h3⟩ := h.1 w hw
        exact ⟨⟨c', List.mem_append_left _ h1, h2⟩, h3⟩
      · intro c' hc' w hw hwl
        rcases List.mem_append.1 hc' with h1 | h1
        · exact h.2 c' h1 w hw hwl
        · simp only [List.mem_singleton] at h1
          subst h1
          rw [hv.2] at hw
          simp only [Option.some.injEq] at hw
          subst hw
          rw [hle] at hwl
          simp at hwl
    | true =>
      simp only [Bool.not_true, Bool.false_eq_true, if_false]
      cases best with
      | none =>
        simp only [hv.2, Option.map_some]
        apply hih
        refine ⟨?_, ?_⟩
        · intro w hw
          simp only [Option.some.injEq] at hw
          subst hw
          exact ⟨⟨c, by simp, hv.2⟩, hle⟩
        · intro c' hc' w hw hwl
          rcases List.mem_append.1 hc' with h1 | h1
          · obtain ⟨b, hb, _⟩ := h.2 c' h1 w hw hwl
            simp at hb
          · simp only [List.mem_singleton] at h1
            subst h1
            rw [hv.2] at hw
            simp only [Option.some.injEq] at hw
            subst hw
            exact ⟨v, rfl, ho.refl v⟩
      | some b =>
        cases hb : lib.le v b with
        | true =>
          simp only [hb, if_true]
          apply hih
          refine ⟨?_, ?_⟩
          · intro w hw
            obtain ⟨⟨c', h1, h2⟩, h3⟩ := h.1 w hw
            exact ⟨⟨c', List.mem_append_left _ h1, h2⟩, h3⟩
          · intro c' hc' w hw hwl
            rcases List.mem_append.1 hc' with h1 | h1
            · exact h.2 c' h1 w hw hwl
            · simp only [List.mem_singleton] at h1
              subst h1
              rw [hv.2] at hw
              simp only [Option.some.injEq] at hw
              subst hw
              exact ⟨b, rfl, hb⟩
        | false =>
          have hbv : lib.le b v = true := by
            rcases ho.total b v with h' | h'
            · exact h'
            · rw [hb] at h'; simp at h'
          simp only [hb, Bool.false_eq_true, if_false, hv.2, Option.map_some]
          apply hih
          refine ⟨?_, ?_⟩
          · intro w hw
            simp only [Option.some.injEq] at hw
            subst hw
            exact ⟨⟨c, by simp, hv.2⟩, hle⟩
          · intro c' hc' w hw hwl
            rcases List.mem_append.1 hc' with h1 | h1
            · obtain ⟨b', hb', hw'⟩ := h.2 c' h1 w hw hwl
              simp only [Option.some.injEq] at hb'
              subst hb'
              exact ⟨v, rfl, ho.trans _ _ _ hw' hbv⟩
            · simp only [List.mem_singleton] at h1
              subst h1
              rw [hv.2] at hw
              simp only [Option.some.injEq] at hw
              subst hw
              exact ⟨v, rfl, ho.refl v⟩

/-- **C107**: when all versioned topologies have plain versions, the selected topology has the highest version that can be used with the current netlab version; the original topology is used
if and only if there's no such version. -/
theorem C107_versioned (ho : VersionOrder lib) (current : V) (stem suffix : String) (versions : List String) (hc : ∀ c ∈ versions, '.' ∈ c.toList → ∃ v, PlainVersion lib c v) :
    (verTopology lib current stem suffix versions = some (stem ++ suffix) ∧ ∀ c ∈ versions, '.' ∈ c.toList → ∀ v, lib.parse c = some v → lib.le v current = false) ∨
    ∃ c ∈ versions, '.' ∈ c.toList ∧ ∃ v, lib.parse c = some v ∧ lib.le v current = true ∧
      verTopology lib current stem suffix versions = some (verFile stem suffix (lib.render v)) ∧
      ∀ c' ∈ versions, '.' ∈ c'.toList → ∀ v', lib.parse c' = some v' → lib.le v' current = true → lib.le v' v = true := by
  obtain ⟨b, hb, h1, h2⟩ := verBest_spec lib ho current (versions.filter (fun v => v.toList.contains '.')) (by
    intro c hx
    simp only [List.mem_filter, List.contains_iff_mem] at hx
    exact hc c hx.1 hx.2) [] none ⟨by simp, by simp⟩
  rw [List.nil_append] at h1 h2
  cases b with
  | none =>
    left
    refine ⟨by unfold verTopology; rw [hb], ?_⟩
    intro c hx hd v hv
    cases hle : lib.le v current with
    | false => rfl
    | true =>
      obtain ⟨b, he, _⟩ := h2 c (by simp [hx, hd]) v hv hle
      simp at he
  | some b =>
    right
    obtain ⟨⟨c, hcm, hcv⟩, hle⟩ := h1 b rfl
    simp only [List.mem_filter, List.contains_iff_mem] at hcm
    refine ⟨c, hcm.1, hcm.2, b, hcv, hle, by unfold verTopology; rw [hb], ?_⟩
    intro c' hx hd v' hv' hle'
    obtain ⟨b', he, hb'⟩ := h2 c' (by simp [hx, hd]) v' hv' hle'
    simp only [Option.some.injEq] at he
    rw [he]
    exact hb'

/-- **C107**: the selected topology does not depend on the order of files in the directory (unless there are two names of the same version). -/
theorem C107_any_order (ho : VersionOrder lib) (current : V) (stem suffix : String) (versions versions' : List String) (hp : versions'.Perm versions)
    (hc : ∀ c ∈ versions, '.' ∈ c.toList → ∃ v, PlainVersion lib c v)
    (hd : ∀ c ∈ versions, ∀ c' ∈ versions, ∀ v v', lib.parse c = some v → lib.parse c' = some v' → lib.le v v' = true → lib.le v' v = true → c = c') :
    verTopology lib current stem suffix versions' = verTopology lib current stem suffix versions := by
  have h := C107_versioned lib ho current stem suffix versions hc
  have h' := C107_versioned lib ho current stem suffix versions' (fun c hx => hc c (hp.mem_iff.1 hx))
  rcases h with ⟨h1, h2⟩ | ⟨c, hcm, hdot, v, hv, hle, he, hmax⟩
  · rcases h' with ⟨h1', _⟩ | ⟨c', hcm', hdot', v', hv', hle', _⟩
    · rw [h1, h1']
    · rw [h2 c' (hp.mem_iff.1 hcm') hdot' v' hv'] at hle'
      simp at hle'
  · rcases h' with ⟨_, h2'⟩ | ⟨c', hcm', hdot', v', hv', hle', he', hmax'⟩
    · rw [h2' c (hp.mem_iff.2 hcm) hdot v hv] at hle
      simp at hle
    · have := hd c hcm c' (hp.mem_iff.1 hcm') v v' hv hv' (hmax' c (hp.mem_iff.2 hcm) hdot v hv hle) (hmax c' (hp.mem_iff.1 hcm') hdot' v' hv' hle')
      subst this
      rw [hv] at hv'
      simp only [Option.some.injEq] at hv'
      rw [he, he', hv']

/-- **C107**: the selected topology is one of the files in the directory when the versions are written in the standard form. -/
theorem C107_file_exists (ho : VersionOrder lib) (current : V) (stem suffix : String) (versions : List String) (hc : ∀ c ∈ versions, '.' ∈ c.toList → ∃ v, PlainVersion lib c v)
    (hr : ∀ c ∈ versions, ∀ v, lib.parse c = some v → lib.render v = c) :
    verTopology lib current stem suffix versions = some (stem ++ suffix) ∨ ∃ c ∈ versions, verTopology lib current stem suffix versions = some (verFile stem suffix c) := by
  rcases C107_versioned lib ho current stem suffix versions hc with ⟨h, _⟩ | ⟨c, hcm, _, v, hv, _, he, _⟩
  · exact Or.inl h
  · exact Or.inr ⟨c, hcm, by rw [he, hr c hcm v hv]⟩

/-- **C107** (defect): a versioned topology with a comparison operator in the version crashes netlab when it could be used. -/
theorem C107_operator_crash (current : V) (stem suffix c : String) (hd : '.' ∈ c.toList) (ho : verHasOp c = true) (p : V → Bool) (hs : lib.specifier c = some p) (hp : p current = true)
    (hn : lib.parse c = none) : verTopology lib current stem suffix [c] = none := by
  simp [verTopology, hd, verBest, verStep, verSpec, ho, hs, hp, hn]

end Versions

/-- Versions that are lists of numbers: parsing, comparison, printing -/
def numVersions : PyVersions (List Nat) where
  parse s := (splitOnChar '.' s.toList).mapM (fun l => if l.all Char.isDigit && !l.isEmpty then some (Nat.ofDigitChars 10 l 0) else none)
  le a b := !(List.lex b a (· < ·))
  render v := ".".intercalate (v.map (fun n => n.repr))
  specifier _ := none

example : verTopology numVersions [1, 6, 4] "topology" ".yml" ["1.5", "1.10", "1.6", "2"] = some "topology.1.6.yml" := by decide +kernel

/-- **C107** (defect): the name of the selected topology is made from the normalized version, and might not exist. -/
theorem C107_missing_file : verTopology numVersions [1, 6, 4] "topology" ".yml" ["1.06"] = some "topology.1.6.yml" := by decide +kernel

/-! ### Included files -/

theorem noIncludes_leaf {v : Val} (h : v.isDict = false) : NoIncludes v := by
  intro p
  cases p with
  | nil => exact at_leaf_cons h _ _
  | cons k p => exact at_leaf_cons h _ _

theorem noIncludes_dict (d : List (String × Val)) : NoIncludes (.dict d) ↔ d.lookup "_include" = none ∧ ∀ k v, d.lookup k = some v → NoIncludes v := by
  constructor
  · intro h
    constructor
    · have := h []
      rw [List.nil_append, at_dict_cons] at this
      cases hl : d.lookup "_include" with
      | none => rfl
      | some v => rw [hl] at this; simp [Val.at] at this
    · intro k v hk p
      have := h (k :: p)
      rw [List.cons_append, at_dict_cons, hk] at this
      exact this
  · rintro ⟨h1, h2⟩ p
    cases p with
    | nil => rw [List.nil_append, at_dict_cons, h1]; rfl
    | cons k p =>
      rw [List.cons_append, at_dict_cons]
      cases hk : d.lookup k with
      | none => rfl
      | some v => exact h2 k v hk p

theorem noIncludes_merge (x y : List (String × Val)) (hu : Val.UniqueKeys (.dict y)) (hx : NoIncludes (.dict x)) (hy : NoIncludes (.dict y)) : NoIncludes (.dict (mergeDict x y)) := by
  intro p
  cases h : Val.at (.dict (mergeDict x y)) (p ++ ["_include"]) with
  | none => rfl
  | some v =>
    rcases at_mergeDict x y hu _ _ h with ⟨u, hu1, _⟩ | ⟨u, hu1, _⟩
    · rw [hx p] at hu1; simp at hu1
    · rw [hy p] at hu1; simp at hu1

/-- All entries apart from `_include` have no includes -/
def CleanEntries (d : List (String × Val)) : Prop := ∀ k v, k ≠ "_include" → d.lookup k = some v → NoIncludes v

theorem clean_setKey {d : List (String × Val)} (h : CleanEntries d) {k : String} {v : Val} (hv : NoIncludes v) : CleanEntries (setKey d k v) := by
  intro j w hj hw
  rw [lookup_setKey] at hw
  split at hw
  · simp only [Option.some.injEq] at hw
    rw [← hw]
    exact hv
  · exact h j w hj hw

theorem clean_incTop1 {d : List (String × Val)} (h : CleanEntries d) (p : String × Val) (hk : p.1 ≠ "_include") (hu : Val.UniqueKeys p.2) (hp : NoIncludes p.2) : CleanEntries (incTop1 d p) := by
  unfold incTop1
  split
  · exact clean_setKey h hp
  · rename_i x y hl hy
    rw [hy] at hp hu
    exact clean_setKey h (noIncludes_merge x y hu (h p.1 _ hk hl) hp)
  · exact h

theorem clean_foldTop (t : List (String × Val)) (ht : ∀ p ∈ t, p.1 ≠ "_include" ∧ Val.UniqueKeys p.2 ∧ NoIncludes p.2) : ∀ d, CleanEntries d → CleanEntries (t.foldl incTop1 d) := by
  induction t with
  | nil => intro d h; exact h
  | cons p r ih =>
    intro d h
    obtain ⟨h1, h2, h3⟩ := ht p List.mem_cons_self
    exact ih (fun q hq => ht q (List.mem_cons_of_mem _ hq)) _ (clean_incTop1 h p h1 h2 h3)

theorem noIncludes_popKey {c : List (String × Val)} (h : NoIncludes (.dict c)) (k : String) : NoIncludes (.dict (popKey c k)) := by
  rw [noIncludes_dict] at h ⊢
  constructor
  · rw [lookup_popKey]
    split
    · rfl
    · exact h.1
  · intro j v hj
    rw [lookup_popKey] at hj
    split at hj
    · simp at hj
    · exact h.2 j v hj

theorem clean_incFile {d d' : List (String × Val)} (h : CleanEntries d) (stem : String) (c : List (String × Val)) (hu : Val.UniqueKeys (.dict c)) (hc : NoIncludes (.dict c))
    (hf : incFile d stem c = some d') : CleanEntries d' := by
  unfold incFile at hf
  split at hf
  · simp only [Option.some.injEq] at hf
    rw [← hf]
    exact clean_setKey h hc
  · rename_i t hl
    simp only [Option.some.injEq] at hf
    rw [← hf]
    refine clean_setKey (clean_foldTop t ?_ d h) (noIncludes_popKey hc _)
    have ht := ((noIncludes_dict c).1 hc).2 _ _ hl
    rw [noIncludes_dict] at ht
    have hut := (uniqueKeys_dict.1 hu).2 _ _ hl
    have hun := uniqueKeys_dict.1 hut
    intro p hp
    have hlp : t.lookup p.1 = some p.2 := lookup_of_mem hun.1 hp
    refine ⟨?_, hun.2 _ _ hlp, ht.2 _ _ hlp⟩
    intro he
    rw [he, ht.1] at hlp
    simp at hlp
  · simp at hf

theorem clean_incFiles (fs : List (String × List (String × Val))) (hfs : ∀ f ∈ fs, Val.UniqueKeys (.dict f.2) ∧ NoIncludes (.dict f.2)) : ∀ d d', CleanEntries d → incFiles fs d = some d' →
    CleanEntries d' := by
  induction fs with
  | nil => intro d d' h hi; simp only [incFiles, Option.some.injEq] at hi; rw [← hi]; exact h
  | cons f r ih =>
    obtain ⟨stem, c⟩ := f
    intro d d' h hi
    simp only [incFiles] at hi
    cases hf : incFile d stem c with
    | none => rw [hf] at hi; simp at hi
    | some d1 =>
      rw [hf] at hi
      obtain ⟨h1, h2⟩ := hfs _ List.mem_cons_self
      exact ih (fun f hf => hfs f (List.mem_cons_of_mem _ hf)) d1 d' (clean_incFile h stem c h1 h2 hf) hi

theorem mapM_mem {α β : Type} (f : α → Option β) (l : List α) : ∀ r, l.mapM f = some r → ∀ y ∈ r, ∃ x ∈ l, f x = some y := by
  induction l with
  | nil => intro r h y hy; simp only [List.mapM_nil] at h; cases h; simp at hy
  | cons a l ih =>
    intro r h y hy
    rw [List.mapM_cons] at h
    cases ha : f a with
    | none => rw [ha] at h; simp at h
    | some b =>
      rw [ha] at h
      cases hl : l.mapM f with
      | none => rw [hl] at h; simp at h
      | some s =>
        rw [hl] at h
        simp only [Option.pure_def, Option.bind_eq_bind, Option.bind_some, Option.some.injEq] at h
        rw [← h] at hy
        rcases List.mem_cons.1 hy with rfl | hy
        · exact ⟨a, List.mem_cons_self, ha⟩
        · obtain ⟨x, hx, hfx⟩ := ih s hl y hy
          exact ⟨x, List.mem_cons_of_mem _ hx, hfx⟩

variable (glob : String → List (String × Option (List (String × Val))))

theorem mapM_mem_left {α β : Type} (f : α → Option β) (l : List α) : ∀ (r : List β), l.mapM f = some r → ∀ x ∈ l, ∃ y ∈ r, f x = some y := by
  induction l with
  | nil => intro r _ x hx; simp at hx
  | cons a l ih =>
    intro r h x hx
    rw [List.mapM_cons] at h
    cases ha : f a with
    | none => rw [ha] at h; simp at h
    | some b =>
      cases hl : l.mapM f with
      | none => rw [ha, hl] at h; simp at h
      | some s =>
        rw [ha, hl] at h
        simp at h
        subst h
        rcases List.mem_cons.1 hx with rfl | hx
        · exact ⟨b, List.mem_cons_self, ha⟩
        · obtain ⟨y, hy, he⟩ := ih s hl x hx
          exact ⟨y, List.mem_cons_of_mem _ hy, he⟩

theorem incNames_mem (l : List Val) : ∀ fs, incNames glob l = some fs → ∀ f ∈ fs, ∃ n, (f.1, some f.2) ∈ glob n := by
  induction l with
  | nil => intro fs h f hf; simp only [incNames, Option.some.injEq] at h; rw [← h] at hf; simp at hf
  | cons v r ih =>
    intro fs h f hf
    cases v with
    | str n =>
      simp only [incNames] at h
      split at h
      · simp at h
      · split at h
        · rename_i a b ha hb
          simp only [Option.some.injEq] at h
          rw [← h] at hf
          rcases List.mem_append.1 hf with hf | hf
          · obtain ⟨x, hx, hfx⟩ := mapM_mem _ _ _ ha f hf
            rw [Option.map_eq_some_iff] at hfx
            obtain ⟨c, hc, he⟩ := hfx
            refine ⟨n, ?_⟩
            rw [← he]
            simp only
            rw [← hc]
            exact hx
          · exact ih _ hb f hf
        · simp at h
    | _ => simp [incNames] at h

/-- **C107**: an included pattern that matches no file, or a file that cannot be read, is a fatal error; otherwise all files matching the patterns are included. -/
theorem C107_include_all (l : List Val) : ∀ fs, incNames glob l = some fs → ∀ v ∈ l, ∃ n, v = .str n ∧ glob n ≠ [] ∧ ∀ f ∈ glob n, ∃ c, f.2 = some c ∧ (f.1, c) ∈ fs := by
  induction l with
  | nil => intro fs _ v hv; simp at hv
  | cons v r ih =>
    intro fs h w hw
    cases v with
    | str n =>
      simp only [incNames] at h
      split at h
      · simp at h
      · rename_i hne
        split at h
        · rename_i a b ha hb
          simp only [Option.some.injEq] at h
          rcases List.mem_cons.1 hw with rfl | hw
          · refine ⟨n, rfl, by simpa using hne, ?_⟩
            intro f hf
            obtain ⟨y, hy, hm⟩ := mapM_mem_left _ _ _ ha f hf
            rw [Option.map_eq_some_iff] at hm
            obtain ⟨c, hc, he⟩ := hm
            exact ⟨c, hc, by rw [← h]; exact List.mem_append_left _ (he ▸ hy)⟩
          · obtain ⟨n', h1, h2, h3⟩ := ih _ hb w hw
            refine ⟨n', h1, h2, fun f hf => ?_⟩
            obtain ⟨c, hc, hm⟩ := h3 f hf
            exact ⟨c, hc, by rw [← h]; exact List.mem_append_right _ hm⟩
        · simp at h
    | _ => simp [incNames] at h

example : incNames (fun n => if n = "a*" then [("a1", some []), ("a2", some [("k", .int 1)])] else []) [.str "a*"] = some [("a1", []), ("a2", [("k", .int 1)])] := by decide +kernel

/-- Data read from files has unique keys and no includes (they were processed when the file was read) -/
def CleanFiles : Prop := ∀ n f c, (f, some c) ∈ glob n → Val.UniqueKeys (.dict c) ∧ NoIncludes (.dict c)

mutual
theorem incVal_clean (hg : CleanFiles glob) : ∀ (v w : Val), incVal glob v = some w → NoIncludes w
  | .dict d, w, h => by
    simp only [incVal] at h
    cases hk : incKeys glob d with
    | none => rw [hk] at h; simp at h
    | some d' =>
      rw [hk] at h
      simp only [Option.map_eq_some_iff] at h
      obtain ⟨e, he, rfl⟩ := h
      have hc : CleanEntries d' := fun k v _ hl => incKeys_clean hg d d' hk k v hl
      unfold incLevel at he
      split at he
      · rename_i hn
        simp only [Option.some.injEq] at he
        rw [← he, noIncludes_dict]
        refine ⟨hn, ?_⟩
        intro k v hl
        exact incKeys_clean hg d d' hk k v hl
      · cases hf : incNames glob _ with
        | none => rw [hf] at he; simp at he
        | some fs =>
          rw [hf] at he
          simp only [Option.map_eq_some_iff] at he
          obtain ⟨e1, he1, rfl⟩ := he
          have hce := clean_incFiles fs (fun f hm => by
            obtain ⟨n, hn⟩ := incNames_mem glob _ _ hf f hm
            exact hg n f.1 f.2 hn) d' e1 hc he1
          rw [noIncludes_dict]
          constructor
          · rw [lookup_popKey]; simp
          · intro k v hl
            rw [lookup_popKey] at hl
            split at hl
            · simp at hl
            · rename_i hne
              exact hce k v hne hl
      · simp at he
  | .null, w, h => by simp only [incVal, Option.some.injEq] at h; rw [← h]; exact noIncludes_leaf rfl
  | .bool _, w, h => by simp only [incVal, Option.some.injEq] at h; rw [← h]; exact noIncludes_leaf rfl
  | .int _, w, h => by simp only [incVal, Option.some.injEq] at h; rw [← h]; exact noIncludes_leaf rfl
  | .str _, w, h => by simp only [incVal, Option.some.injEq] at h; rw [← h]; exact noIncludes_leaf rfl
  | .list _, w, h => by simp only [incVal, Option.some.injEq] at h; rw [← h]; exact noIncludes_leaf rfl
theorem incKeys_clean (hg : CleanFiles glob) : ∀ (d d' : List (String × Val)), incKeys glob d = some d' → ∀ k v, d'.lookup k = some v → NoIncludes v
  | [], d', h, k, v, hl => by simp only [incKeys, Option.some.injEq] at h; rw [← h] at hl; simp at hl
  | (j, u) :: r, d', h, k, v, hl => by
    simp only [incKeys] at h
    split at h
    · rename_i w s hw hs
      simp only [Option.some.injEq] at h
      rw [← h] at hl
      by_cases hkj : k = j
      · subst hkj
        rw [lookup_cons_self] at hl
        simp only [Option.some.injEq] at hl
        rw [← hl]
        exact incVal_clean hg u w hw
      · rw [lookup_cons_ne _ _ hkj] at hl
        exact incKeys_clean hg r s hs k v hl
    · simp at h
end

/-- **C107**: when the files are included, no include request is left anywhere in the data. -/
theorem C107_includes_done (hg : CleanFiles glob) (v w : Val) (h : incVal glob v = some w) : NoIncludes w := incVal_clean glob hg v w h

mutual
theorem incVal_id : ∀ (v : Val), Val.UniqueKeys v → NoIncludes v → incVal glob v = some v
  | .dict d, hu, h => by
    have hd := (noIncludes_dict d).1 h
    have hud := uniqueKeys_dict.1 hu
    have hk : incKeys glob d = some d := incKeys_id d (fun p hp => by
      have hl := lookup_of_mem hud.1 hp
      exact ⟨hud.2 _ _ hl, hd.2 _ _ hl⟩)
    simp only [incVal, hk, incLevel, hd.1, Option.map_some]
  | .null, _, _ => rfl
  | .bool _, _, _ => rfl
  | .int _, _, _ => rfl
  | .str _, _, _ => rfl
  | .list _, _, _ => rfl
theorem incKeys_id : ∀ (d : List (String × Val)), (∀ p ∈ d, Val.UniqueKeys p.2 ∧ NoIncludes p.2) → incKeys glob d = some d
  | [], _ => rfl
  | (k, v) :: r, h => by
    simp only [incKeys, incVal_id v (h _ List.mem_cons_self).1 (h _ List.mem_cons_self).2, incKeys_id r (fun p hp => h p (List.mem_cons_of_mem _ hp))]
end

/-- **C107**: data without include requests is not changed. -/
theorem C107_no_includes (v : Val) (hu : Val.UniqueKeys v) (h : NoIncludes v) : incVal glob v = some v := incVal_id glob v hu h

theorem incTop1_lookup (d : List (String × Val)) (p : String × Val) (k : String) : (k ≠ p.1 → (incTop1 d p).lookup k = d.lookup k) ∧
    (∀ v, d.lookup k = some v → v.isDict = false → (incTop1 d p).lookup k = some v) ∧
    (k = p.1 → d.lookup k = none → (incTop1 d p).lookup k = some p.2) := by
  unfold incTop1
  split
  · rename_i hl
    refine ⟨?_, ?_, ?_⟩
    · intro hne; rw [lookup_setKey, if_neg hne]
    · intro v hv hd
      rw [lookup_setKey, if_neg]
      · exact hv
      · rintro rfl; rw [hl] at hv; simp at hv
    · rintro rfl _; rw [lookup_setKey, if_pos rfl]
  · rename_i x y hl hy
    refine ⟨?_, ?_, ?_⟩
    · intro hne; rw [lookup_setKey, if_neg hne]
    · intro v hv hd
      rw [lookup_setKey, if_neg]
      · exact hv
      · rintro rfl
        rw [hl] at hv
        simp only [Option.some.injEq] at hv
        subst hv
        simp [Val.isDict] at hd
    · rintro rfl hn; rw [hl] at hn; simp at hn
  · rename_i hl _
    refine ⟨fun _ => rfl, fun v hv _ => hv, ?_⟩
    rintro rfl hn
    rw [hn] at hl
    simp at hl

theorem foldTop_lookup (t : List (String × Val)) (k : String) : ∀ d, (k ∉ t.map (·.1) → (t.foldl incTop1 d).lookup k = d.lookup k) ∧
    (∀ v, d.lookup k = some v → v.isDict = false → (t.foldl incTop1 d).lookup k = some v) ∧
    (∀ v, (t.map (·.1)).Nodup → t.lookup k = some v → d.lookup k = none → (t.foldl incTop1 d).lookup k = some v) := by
  induction t with
  | nil => intro d; exact ⟨fun _ => rfl, fun v hv _ => hv, by simp⟩
  | cons p r ih =>
    intro d
    obtain ⟨i1, i2, i3⟩ := ih (incTop1 d p)
    obtain ⟨h1, h2, h3⟩ := incTop1_lookup d p k
    simp only [List.foldl_cons, List.map_cons, List.mem_cons, not_or]
    refine ⟨fun hk => (i1 hk.2).trans (h1 hk.1), fun v hv hd => i2 v (h2 v hv hd) hd, ?_⟩
    intro v hn hl hd
    obtain ⟨j, u⟩ := p
    rw [List.nodup_cons] at hn
    by_cases hkj : k = j
    · subst hkj
      rw [lookup_cons_self] at hl
      rw [i1 hn.1, h3 rfl hd]
      exact hl
    · rw [lookup_cons_ne _ _ hkj] at hl
      exact i3 v hn.2 hl ((h1 hkj).trans hd)

/-- The settings a file adds outside of its scope -/
def Spec.topOf (c : List (String × Val)) : List (String × Val) :=
  match c.lookup "_top" with
  | some (.dict t) => t
  | _ => []

theorem incFile_lookup (d d' : List (String × Val)) (stem : String) (c : List (String × Val)) (h : incFile d stem c = some d') (k : String) :
    (k = stem → d'.lookup k = some (.dict (popKey c "_top"))) ∧
    (k ≠ stem → k ∉ (topOf c).map (·.1) → d'.lookup k = d.lookup k) ∧
    (k ≠ stem → ∀ v, d.lookup k = some v → v.isDict = false → d'.lookup k = some v) ∧
    (k ≠ stem → ∀ v, ((topOf c).map (·.1)).Nodup → (topOf c).lookup k = some v → d.lookup k = none → d'.lookup k = some v) := by
  unfold incFile at h
  unfold topOf
  split at h
  · rename_i hl
    simp only [Option.some.injEq] at h
    rw [← h]
    simp only [hl]
    have hpop : popKey c "_top" = c := by
      unfold popKey
      rw [List.filter_eq_self]
      intro p hp
      have := lookup_eq_none_iff.1 hl
      simp only [bne_iff_ne, ne_eq]
      intro he
      exact this (List.mem_map.2 ⟨p, hp, he⟩)
    refine ⟨?_, ?_, ?_, ?_⟩
    · rintro rfl; rw [lookup_setKey, if_pos rfl, hpop]
    · intro hne _; rw [lookup_setKey, if_neg hne]
    · intro hne v hv _; rw [lookup_setKey, if_neg hne]; exact hv
    · intro _ v _ hv; simp at hv
  · rename_i t hl
    simp only [Option.some.injEq] at h
    rw [← h]
    simp only [hl]
    obtain ⟨f1, f2, f3⟩ := foldTop_lookup t k d
    refine ⟨?_, ?_, ?_, ?_⟩
    · rintro rfl; rw [lookup_setKey, if_pos rfl]
    · intro hne hk; rw [lookup_setKey, if_neg hne]; exact f1 hk
    · intro hne v hv hd; rw [lookup_setKey, if_neg hne]; exact f2 v hv hd
    · intro hne v hn hv hd; rw [lookup_setKey, if_neg hne]; exact f3 v hn hv hd
  · simp at h

theorem incFiles_append (a b : List (String × List (String × Val))) : ∀ d, incFiles (a ++ b) d = (incFiles a d).bind (incFiles b) := by
  induction a with
  | nil => intro d; rfl
  | cons f r ih =>
    obtain ⟨s, c⟩ := f
    intro d
    simp only [List.cons_append, incFiles]
    cases incFile d s c with
    | none => rfl
    | some d => exact ih d

theorem incFiles_keep (fs : List (String × List (String × Val))) (k : String) : ∀ d d', incFiles fs d = some d' → (∀ f ∈ fs, k ≠ f.1) →
    ((∀ f ∈ fs, k ∉ (topOf f.2).map (·.1)) → d'.lookup k = d.lookup k) ∧ ∀ v, d.lookup k = some v → v.isDict = false → d'.lookup k = some v := by
  induction fs with
  | nil => intro d d' h _; simp only [incFiles, Option.some.injEq] at h; rw [← h]; exact ⟨fun _ => rfl, fun v hv _ => hv⟩
  | cons f r ih =>
    obtain ⟨s, c⟩ := f
    intro d d' h hk
    simp only [incFiles] at h
    cases hf : incFile d s c with
    | none => rw [hf] at h; simp at h
    | some d1 =>
      rw [hf] at h
      obtain ⟨_, h2, h3, _⟩ := incFile_lookup d d1 s c hf k
      have hks := hk _ List.mem_cons_self
      obtain ⟨i1, i2⟩ := ih d1 d' h (fun f hf => hk f (List.mem_cons_of_mem _ hf))
      refine ⟨fun ht => (i1 (fun f hf => ht f (List.mem_cons_of_mem _ hf))).trans (h2 hks (ht _ List.mem_cons_self)), fun v hv hd => i2 v (h3 hks v hv hd) hd⟩

/-- Files included into a dictionary -/
theorem incLevel_files (d d' : List (String × Val)) (l : List Val) (hl : d.lookup "_include" = some (.list l)) (h : incLevel glob d = some d') :
    ∃ fs e, incNames glob l = some fs ∧ incFiles fs d = some e ∧ d' = popKey e "_include" := by
  unfold incLevel at h
  rw [hl] at h
  simp only at h
  cases hf : incNames glob l with
  | none => rw [hf] at h; simp at h
  | some fs =>
    rw [hf] at h
    simp only [Option.map_eq_some_iff] at h
    obtain ⟨e, he, hx⟩ := h
    exact ⟨fs, e, rfl, he, hx.symm⟩

/-- **C107**: the contents of an included file (apart from its `_top` settings) is found under the name of the file, unless a later file has the same name or changes it with its `_top` settings. -/
theorem C107_included (d d' : List (String × Val)) (l : List Val) (hl : d.lookup "_include" = some (.list l)) (h : incLevel glob d = some d')
    (before after : List (String × List (String × Val))) (name : String) (c : List (String × Val)) (hfs : incNames glob l = some (before ++ (name, c) :: after)) (hn : name ≠ "_include")
    (ha : ∀ f ∈ after, f.1 ≠ name ∧ name ∉ (topOf f.2).map (·.1)) : d'.lookup name = some (.dict (popKey c "_top")) := by
  obtain ⟨fs, e, h1, h2, rfl⟩ := incLevel_files glob d d' l hl h
  rw [hfs] at h1
  simp only [Option.some.injEq] at h1
  subst h1
  rw [incFiles_append] at h2
  cases hb : incFiles before d with
  | none => rw [hb] at h2; simp at h2
  | some d1 =>
    rw [hb] at h2
    simp only [Option.bind_some, incFiles] at h2
    cases hf : incFile d1 name c with
    | none => rw [hf] at h2; simp at h2
    | some d2 =>
      rw [hf] at h2
      rw [lookup_popKey, if_neg hn, (incFiles_keep after name d2 e h2 (fun f hf => fun he => (ha f hf).1 he.symm)).1 (fun f hf => (ha f hf).2)]
      exact (incFile_lookup d1 d2 name c hf name).1 rfl

/-- **C107**: the other settings are kept: `_top` settings of included files never change an existing scalar or list. -/
theorem C107_include_keeps (d d' : List (String × Val)) (l : List Val) (hl : d.lookup "_include" = some (.list l)) (h : incLevel glob d = some d')
    (fs : List (String × List (String × Val))) (hfs : incNames glob l = some fs) (k : String) (hk : k ≠ "_include") (hs : ∀ f ∈ fs, k ≠ f.1) :
    ((∀ f ∈ fs, k ∉ (topOf f.2).map (·.1)) → d'.lookup k = d.lookup k) ∧ ∀ v, d.lookup k = some v → v.isDict = false → d'.lookup k = some v := by
  obtain ⟨fs', e, h1, h2, rfl⟩ := incLevel_files glob d d' l hl h
  rw [hfs] at h1
  simp only [Option.some.injEq] at h1
  subst h1
  obtain ⟨i1, i2⟩ := incFiles_keep fs k d e h2 hs
  rw [lookup_popKey, if_neg hk]
  exact ⟨i1, i2⟩

/-- **C107**: a new scalar or list setting is the `_top` setting of the first included file that has it. -/
theorem C107_include_top (d d' : List (String × Val)) (l : List Val) (hl : d.lookup "_include" = some (.list l)) (h : incLevel glob d = some d')
    (before after : List (String × List (String × Val))) (name : String) (c : List (String × Val)) (hfs : incNames glob l = some (before ++ (name, c) :: after))
    (k : String) (hk : k ≠ "_include") (hs : ∀ f ∈ before ++ (name, c) :: after, k ≠ f.1) (hd : d.lookup k = none) (hb : ∀ f ∈ before, k ∉ (topOf f.2).map (·.1))
    (hu : ((topOf c).map (·.1)).Nodup) (v : Val) (hv : (topOf c).lookup k = some v) (hvd : v.isDict = false) : d'.lookup k = some v := by
  obtain ⟨fs, e, h1, h2, rfl⟩ := incLevel_files glob d d' l hl h
  rw [hfs] at h1
  simp only [Option.some.injEq] at h1
  subst h1
  rw [incFiles_append] at h2
  cases hbf : incFiles before d with
  | none => rw [hbf] at h2; simp at h2
  | some d1 =>
    rw [hbf] at h2
    simp only [Option.bind_some, incFiles] at h2
    cases hf : incFile d1 name c with
    | none => rw [hf] at h2; simp at h2
    | some d2 =>
      rw [hf] at h2
      have hd1 := ((incFiles_keep before k d d1 hbf (fun f hf => hs f (List.mem_append_left _ hf))).1 hb).trans hd
      have hd2 := (incFile_lookup d1 d2 name c hf k).2.2.2 (hs (name, c) (by simp)) v hu hv hd1
      rw [lookup_popKey, if_neg hk]
      exact (incFiles_keep after k d2 e h2 (fun f hf => hs f (by simp [hf]))).2 v hd2 hvd

/-- Files used in examples -/
def exGlob (n : String) : List (String × Option (List (String × Val))) :=
  if n = "modules/*.yml" then [("bgp", some [("as", .int 65000), ("_top", .dict [("x", .int 1)])]), ("ospf", some [("area", .str "0.0.0.0")])]
  else if n = "nodes.yml" then [("nodes", some [("r2", .null)])]
  else []

example : incVal exGlob (.dict [("a", .dict [("_include", .list [.str "modules/*.yml"])]), ("b", .int 1)]) =
    some (.dict [("a", .dict [("x", .int 1), ("bgp", .dict [("as", .int 65000)]), ("ospf", .dict [("area", .str "0.0.0.0")])]), ("b", .int 1)]) := by decide +kernel

/-- **C107** (defect): the included file replaces existing settings with the same name. -/
theorem C107_include_replaces : incVal exGlob (.dict [("nodes", .dict [("r1", .null)]), ("_include", .list [.str "nodes.yml"])]) = some (.dict [("nodes", .dict [("r2", .null)])]) := by
  decide +kernel

/-! ### CLI arguments -/

/-- **C107**: integers, and true or false in any case, are recognized in CLI settings; every other value is a string. -/
theorem C107_cli_value (s : String) :
    (∀ n : Nat, s = n.repr → cliValue s = .int n) ∧ (∀ i, cliValue s = .int i ↔ pyIntStr s = some i) ∧
    (pyIntStr s = none → (cliLower s = "true".toList → cliValue s = .bool true) ∧ (cliLower s = "false".toList → cliValue s = .bool false) ∧
      (cliLower s ≠ "true".toList → cliLower s ≠ "false".toList → cliValue s = .str s)) := by
  refine ⟨?_, ?_, ?_⟩
  · rintro n rfl
    unfold cliValue pyIntStr
    rw [pyInt_repr]
  · intro i
    unfold cliValue
    cases pyIntStr s with
    | some j => simp
    | none =>
      simp only [reduceCtorEq, iff_false]
      split
      · simp
      · split <;> simp
  · intro hn
    unfold cliValue
    rw [hn]
    refine ⟨?_, ?_, ?_⟩
    · intro h; rw [if_pos h]
    · intro h
      rw [if_neg (by rw [h]; decide), if_pos h]
    · intro h1 h2; rw [if_neg h1, if_neg h2]

theorem splitOnChar_setting {s k v : String} (h : IsSetting s k v) : splitOnChar '=' s.toList = [k.toList, v.toList] := by
  rw [h.1, splitOnChar_append _ _ _ h.2.1, splitOnChar_one _ _ h.2.2]

/-- **C107**: a CLI setting is stored when all intermediate values are dictionaries or missing; nothing else is changed. -/
theorem C107_cli_setting (topo : List (String × Val)) (e : Nat) (s k v : String) (hs : IsSetting s k v)
    (hp : ∀ q u, q <+: cliPath k → q ≠ cliPath k → Val.at (.dict topo) q = some u → u.isDict = true) :
    ∃ out, cliSetting topo e s = .done out e ∧ Val.at (.dict out) (cliPath k) = some (cliValue v) ∧
      ∀ q w, ¬ (cliPath k <+: q) → (Val.leafAt (.dict out) q w ↔ Val.leafAt (.dict topo) q w) := by
  have hne : cliPath k ≠ [] := by
    unfold cliPath
    intro h
    exact splitOnChar_ne_nil _ _ (List.map_eq_nil_iff.1 h)
  obtain ⟨out, h1, h2, h3⟩ := C48_environment_set (cliValue v) (cliPath k) topo hne hp
  refine ⟨out, ?_, h2, h3⟩
  unfold cliSetting
  rw [splitOnChar_setting hs]
  simp only [String.ofList_toList]
  rw [h1]

theorem cliSettings_append (a b : List String) : ∀ t e, cliSettings (a ++ b) t e = match cliSettings a t e with
    | .done t e => cliSettings b t e
    | .fatal => .fatal
    | .crash => .crash := by
  induction a with
  | nil => intro t e; rfl
  | cons s r ih =>
    intro t e
    simp only [List.cons_append, cliSettings]
    cases cliSetting t e s with
    | done t e => exact ih t e
    | fatal => rfl
    | crash => rfl

/-- **C107**: the last CLI setting wins: it overrides the topology, the other CLI arguments and all the settings in front of it, and does not change anything else. -/
theorem C107_cli_wins (topo : List (String × Val)) (device provider : Option String) (plugins before : List String) (mid : List (String × Val)) (e : Nat)
    (hm : cliArgs topo device provider plugins before = .done mid e) (s k v : String) (hs : IsSetting s k v)
    (hp : ∀ q u, q <+: cliPath k → q ≠ cliPath k → Val.at (.dict mid) q = some u → u.isDict = true) :
    ∃ out, cliArgs topo device provider plugins (before ++ [s]) = .done out e ∧ Val.at (.dict out) (cliPath k) = some (cliValue v) ∧
      ∀ q w, ¬ (cliPath k <+: q) → (Val.leafAt (.dict out) q w ↔ Val.leafAt (.dict mid) q w) := by
  obtain ⟨out, h1, h2, h3⟩ := C107_cli_setting mid e s k v hs hp
  refine ⟨out, ?_, h2, h3⟩
  unfold cliArgs at hm ⊢
  split at hm
  · simp at hm
  · split at hm
    · simp at hm
    · split at hm
      · simp at hm
      · rw [cliSettings_append, hm]
        simp only [cliSettings, h1]

/-- **C107** (defect): a CLI setting crashes netlab if and only if it does not have exactly one equal sign. -/
theorem C107_cli_crash (topo : List (String × Val)) (e : Nat) (s : String) : cliSetting topo e s = .crash ↔ s.toList.count '=' ≠ 1 := by
  have hl := splitOnChar_length '=' s.toList
  unfold cliSetting
  split
  · rename_i k v hk
    rw [hk] at hl
    simp only [List.length_cons, List.length_nil] at hl
    constructor
    · intro h
      split at h
      · simp at h
      · split at h <;> simp at h
    · intro h; omega
  · rename_i hk
    simp only [true_iff]
    intro h
    rw [h] at hl
    match hx : splitOnChar '=' s.toList, hl with
    | [a, b], _ => exact hk a b hx

/-- **C107**: plugins specified as CLI arguments are added to the plugins specified in the lab topology. -/
theorem C107_cli_plugins (topo out : List (String × Val)) (plugins : List String) (hp : plugins ≠ []) (h : cliPlugins topo plugins = some out) :
    (topo.lookup "plugin" = none → out.lookup "plugin" = some (.list (plugins.map .str))) ∧
    (∀ l, topo.lookup "plugin" = some (.list l) → out.lookup "plugin" = some (.list (l ++ plugins.map .str))) ∧
    (∀ n, topo.lookup "plugin" = some (.str n) → out.lookup "plugin" = some (.list (.str n :: plugins.map .str))) ∧
    ∀ k, k ≠ "plugin" → out.lookup k = topo.lookup k := by
  unfold cliPlugins at h
  rw [if_neg (by simpa using hp)] at h
  split at h
  · simp at h
  · simp only [Option.some.injEq] at h
    rw [← h]
    refine ⟨?_, ?_, ?_, ?_⟩
    · intro hl; rw [hl, lookup_setKey, if_pos rfl]; rfl
    · intro l hl; rw [hl, lookup_setKey, if_pos rfl]; rfl
    · intro n hl; rw [hl, lookup_setKey, if_pos rfl]; rfl
    · intro k hk; rw [lookup_setKey, if_neg hk]

/-- Setting several values in the same dictionary -/
theorem cliSetAll_spec (v : Val) (hv : v.isDict = false) (base : List String) (os : List String) : ∀ t : List (String × Val), (∀ q u, q <+: base → Val.at (.dict t) q = some u → u.isDict = true) →
    ∃ out, cliSetAll v (os.map (fun o => base ++ [o])) t = some out ∧ (∀ o ∈ os, Val.at (.dict out) (base ++ [o]) = some v) ∧
      (∀ q w, (∀ o ∈ os, ¬ (base ++ [o] <+: q)) → (Val.leafAt (.dict out) q w ↔ Val.leafAt (.dict t) q w)) := by
  induction os with
  | nil => intro t _; exact ⟨t, rfl, by simp, fun q w _ => Iff.rfl⟩
  | cons o os ih =>
    intro t ht
    obtain ⟨t1, h1, h2, h3⟩ := C48_environment_set v (base ++ [o]) t (by simp) (by
      intro q u hq hne hu
      refine ht q u ?_ hu
      rcases List.prefix_concat_iff.1 hq with h | h
      · exact absurd h hne
      · exact h)
    have ht1 : ∀ q u, q <+: base → Val.at (.dict t1) q = some u → u.isDict = true := by
      intro q u hq hu
      obtain ⟨r, rfl⟩ := hq
      rw [List.append_assoc, at_append, hu] at h2
      simp only [Option.bind_some] at h2
      cases hd : u.isDict with
      | true => rfl
      | false =>
        cases r with
        | nil => rw [List.nil_append, at_leaf_cons hd] at h2; simp at h2
        | cons a r => rw [List.cons_append, at_leaf_cons hd] at h2; simp at h2
    obtain ⟨out, i1, i2, i3⟩ := ih t1 ht1
    refine ⟨out, by simp [cliSetAll, h1, i1], ?_, ?_⟩
    · intro x hx
      rcases List.mem_cons.1 hx with rfl | hx
      · by_cases hin : x ∈ os
        · exact i2 x hin
        · have := (i3 (base ++ [x]) v (fun o' ho hpre => by
            have hl := (List.prefix_append_right_inj base).1 hpre
            simp only [List.cons_prefix_cons, List.prefix_rfl, and_true] at hl
            exact hin (hl ▸ ho))).2 ⟨h2, hv⟩
          exact this.1
      · exact i2 x hx
    · intro q w hq
      rw [i3 q w (fun o' ho => hq o' (List.mem_cons_of_mem _ ho)), h3 q w (hq o List.mem_cons_self)]

/-- **C107**: the provider argument sets the provider, and enables all provider options specified in it; nothing else is changed. -/
theorem C107_cli_provider (topo : List (String × Val)) (s p : String) (opts : List String) (hs : s.toList = p.toList ++ ':' :: [','].intercalate (opts.map String.toList))
    (hp : ':' ∉ p.toList) (ho : opts ≠ []) (hc : ∀ o ∈ opts, ',' ∉ o.toList ∧ ':' ∉ o.toList)
    (hd : ∀ q u, q <+: ["defaults", "providers", p] → Val.at (.dict topo) q = some u → u.isDict = true) :
    ∃ out, cliProvider topo s = some out ∧ Val.at (.dict out) ["provider"] = some (.str p) ∧ (∀ o ∈ opts, Val.at (.dict out) ["defaults", "providers", p, o] = some (.bool true)) ∧
      ∀ q w, (∀ o ∈ opts, ¬ (["defaults", "providers", p, o] <+: q)) → ¬ (["provider"] <+: q) → (Val.leafAt (.dict out) q w ↔ Val.leafAt (.dict topo) q w) := by
  have hcol : ':' ∉ [','].intercalate (opts.map String.toList) := by
    clear hs ho hd
    induction opts with
    | nil => simp
    | cons o r ih =>
      cases r with
      | nil => simpa [List.intercalate] using (hc o List.mem_cons_self).2
      | cons o' r =>
        simp only [List.map_cons, List.intercalate_cons_cons, List.mem_append, List.mem_singleton, not_or] at ih ⊢
        exact ⟨⟨(hc o List.mem_cons_self).2, by decide⟩, ih (fun x hx => hc x (List.mem_cons_of_mem _ hx))⟩
  have hsplit : splitOnChar ':' s.toList = [p.toList, [','].intercalate (opts.map String.toList)] := by
    rw [hs, splitOnChar_append _ _ _ hp, splitOnChar_one _ _ hcol]
  have hopts : splitOnChar ',' ([','].intercalate (opts.map String.toList)) = opts.map String.toList :=
    splitOnChar_intercalate ',' _ (by simpa using ho) (by
      intro e he
      obtain ⟨o, hom, rfl⟩ := List.mem_map.1 he
      exact (hc o hom).1)
  have hpaths : (([[','].intercalate (opts.map String.toList)].flatMap (splitOnChar ',')).map (fun o => ["defaults", "providers", String.ofList p.toList, String.ofList o])) =
      opts.map (fun o => ["defaults", "providers", p] ++ [o]) := by
    simp only [List.flatMap_cons, List.flatMap_nil, List.append_nil, hopts, List.map_map, String.ofList_toList]
    apply List.map_congr_left
    intro o _
    simp
  have hset : ∀ q, q ≠ [] → ¬ (["provider"] <+: q) → Val.at (.dict (setKey topo "provider" (.str p))) q = Val.at (.dict topo) q := by
    intro q hq hn
    cases q with
    | nil => exact absurd rfl hq
    | cons k r =>
      rw [at_dict_cons, at_dict_cons, lookup_setKey, if_neg]
      rintro rfl
      exact hn (by simp)
  obtain ⟨out, h1, h2, h3⟩ := cliSetAll_spec (.bool true) rfl ["defaults", "providers", p] opts (setKey topo "provider" (.str p)) (by
    intro q u hq hu
    by_cases hq0 : q = []
    · subst hq0
      simp only [Val.at, Option.some.injEq] at hu
      rw [← hu]
      rfl
    · refine hd q u hq ?_
      rw [← hu]
      refine (hset q hq0 ?_).symm
      intro hpre
      have := List.IsPrefix.trans hpre hq
      simp at this)
  refine ⟨out, ?_, ?_, ?_, ?_⟩
  · unfold cliProvider
    rw [hsplit]
    simp only
    rw [hpaths, String.ofList_toList]
    exact h1
  · have := (h3 ["provider"] (.str p) (by simp)).2 ⟨by simp [Val.at, lookup_setKey], rfl⟩
    exact this.1
  · exact h2
  · intro q w hq hn
    rw [h3 q w hq]
    unfold Val.leafAt
    by_cases hq0 : q = []
    · subst hq0
      simp only [Val.at, Option.some.injEq]
      constructor <;> (rintro ⟨rfl, h⟩; simp [Val.isDict] at h)
    · rw [hset q hq0 hn]

example : cliArgs [("defaults", .dict [("device", .str "frr")])] (some "eos") (some "clab:ssh,ipv6") ["ebgp.utils"] ["defaults.x=3", "mgmt=TRUE"] =
    .done [("defaults", .dict [("device", .str "eos"), ("providers", .dict [("clab", .dict [("ssh", .bool true), ("ipv6", .bool true)])]), ("x", .int 3)]), ("provider", .str "clab"),
      ("plugin", .list [.str "ebgp.utils"]), ("mgmt", .bool true)] 0 := by decide +kernel

theorem setPath_list (v : Val) (p : List String) : ∀ (d : List (String × Val)) (q : List String) (l : List Val), q <+: p → q ≠ p → Val.at (.dict d) q = some (.list l) → setPath v p d = none := by
  induction p with
  | nil =>
    intro d q l hq hne _
    exact absurd (List.prefix_nil.1 hq) hne
  | cons k p ih =>
    intro d q l hq hne ha
    cases q with
    | nil => simp [Val.at] at ha
    | cons j q =>
      rw [List.cons_prefix_cons] at hq
      obtain ⟨rfl, hq⟩ := hq
      have hne' : q ≠ p := fun h => hne (by rw [h])
      cases p with
      | nil => exact absurd (List.prefix_nil.1 hq) hne'
      | cons i p =>
        rw [setPath_cons]
        rw [at_dict_cons] at ha
        cases hl : d.lookup j with
        | none => rw [hl] at ha; simp at ha
        | some w =>
          rw [hl] at ha
          simp only [Option.bind_some] at ha
          cases w with
          | dict s => simp only [ih s q l hq hne' ha, Option.map_none]
          | list _ => rfl
          | _ =>
            cases q with
            | nil => simp [Val.at] at ha
            | cons => simp [Val.at] at ha

/-- **C107**: a CLI setting within a list is an error (nodes or links specified as lists), or terminates netlab; the topology is not changed. -/
theorem C107_cli_list (topo : List (String × Val)) (e : Nat) (s k v : String) (hs : IsSetting s k v) (q : List String) (l : List Val) (hq : q <+: cliPath k) (hne : q ≠ cliPath k)
    (hl : Val.at (.dict topo) q = some (.list l)) :
    ((∃ a b, k.toList = a ++ "nodes.".toList ++ b) ∨ (∃ a b, k.toList = a ++ "links.".toList ++ b) → cliSetting topo e s = .done topo (e + 1)) ∧
    (¬ (∃ a b, k.toList = a ++ "nodes.".toList ++ b) → ¬ (∃ a b, k.toList = a ++ "links.".toList ++ b) → cliSetting topo e s = .fatal) := by
  rw [← pySubstr_iff, ← pySubstr_iff]
  unfold cliSetting
  rw [splitOnChar_setting hs]
  simp only [String.ofList_toList]
  rw [setPath_list _ _ _ q l hq hne hl]
  cases pySubstr "nodes.".toList k.toList <;> cases pySubstr "links.".toList k.toList <;> simp

/-- **C107**: CLI arguments are processed one after the other: device, provider, plugins and settings. -/
theorem C107_cli_stages (topo : List (String × Val)) (device provider : Option String) (plugins settings : List String) (out : List (String × Val)) (e : Nat) :
    cliArgs topo device provider plugins settings = .done out e ↔
      ∃ a b c, cliArgs topo device none [] [] = .done a 0 ∧ cliArgs a none provider [] [] = .done b 0 ∧ cliArgs b none none plugins [] = .done c 0 ∧
        cliArgs c none none [] settings = .done out e := by
  unfold cliArgs
  have hd : ∀ t, cliDevice t none = some t := fun t => rfl
  have hv : ∀ t, cliProviderOpt t none = some t := fun t => rfl
  have hp : ∀ t, cliPlugins t [] = some t := fun t => rfl
  simp only [hd, hv, hp, cliSettings]
  have hq : ∀ t, (∃ b c, (match cliProviderOpt t provider with
        | none => CliResult.crash
        | some t => CliResult.done t 0) = CliResult.done b 0 ∧ (match cliPlugins b plugins with
        | none => CliResult.fatal
        | some t => CliResult.done t 0) = CliResult.done c 0 ∧ cliSettings settings c 0 = CliResult.done out e) ↔
      ∃ b, cliProviderOpt t provider = some b ∧ ∃ c, cliPlugins b plugins = some c ∧ cliSettings settings c 0 = CliResult.done out e := by
    intro t
    constructor
    · rintro ⟨b, c, h1, h2, h3⟩
      split at h1
      · simp at h1
      · rename_i hb
        simp only [CliResult.done.injEq, and_true] at h1
        subst h1
        split at h2
        · simp at h2
        · rename_i hc
          simp only [CliResult.done.injEq, and_true] at h2
          subst h2
          exact ⟨_, hb, _, hc, h3⟩
    · rintro ⟨b, h1, c, h2, h3⟩
      exact ⟨b, c, by rw [h1], by rw [h2], h3⟩
  cases cliDevice topo device with
  | none => simp
  | some t =>
    simp only [CliResult.done.injEq, and_true]
    constructor
    · intro h
      obtain ⟨b, h1, c, h2, h3⟩ : ∃ b, cliProviderOpt t provider = some b ∧ ∃ c, cliPlugins b plugins = some c ∧ cliSettings settings c 0 = CliResult.done out e := by
        split at h
        · simp at h
        · rename_i b hb
          split at h
          · simp at h
          · rename_i c hc
            exact ⟨b, hb, c, hc, h⟩
      exact ⟨t, b, c, rfl, by rw [h1], by rw [h2], h3⟩
    · rintro ⟨a, b, c, rfl, h⟩
      obtain ⟨b, h1, c, h2, h3⟩ := (hq t).1 ⟨b, c, h⟩
      rw [h1]
      simp only
      rw [h2]
      exact h3

/-- **C107**: the processing of individual CLI arguments: the device is the default device, and missing arguments do not change anything. -/
theorem C107_cli_parts (topo : List (String × Val)) (provider : String) (plugins settings : List String) (out : List (String × Val)) :
    (cliArgs topo none none [] [] = .done topo 0) ∧
    (∀ d, d ≠ "" → ∀ dd, topo.lookup "defaults" = some (.dict dd) → cliArgs topo (some d) none [] [] = .done (setKey topo "defaults" (.dict (setKey dd "device" (.str d)))) 0) ∧
    (provider ≠ "" → cliProvider topo provider = some out → cliArgs topo none (some provider) [] [] = .done out 0) ∧
    (cliPlugins topo plugins = some out → cliArgs topo none none plugins [] = .done out 0) ∧
    cliArgs topo none none [] settings = cliSettings settings topo 0 := by
  refine ⟨rfl, ?_, ?_, ?_, rfl⟩
  · intro d hd dd hdd
    have hf : (some d).filter (· != "") = some d := by simp [Option.filter, hd]
    simp only [cliArgs, cliDevice, hf, setPath, hdd, Option.map_some]
    rfl
  · intro hp h
    have hf : (some provider).filter (· != "") = some provider := by simp [Option.filter, hp]
    have hd : cliDevice topo none = some topo := rfl
    simp only [cliArgs, hd, cliProviderOpt, hf, h]
    rfl
  · intro h
    have hd : cliDevice topo none = some topo := rfl
    have hv : cliProviderOpt topo none = some topo := rfl
    simp only [cliArgs, hd, hv, h]
    rfl

end Netlab
