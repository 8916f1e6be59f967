import Verif.Model.AttrConfig
import Verif.Spec.AttrConfig
import Verif.Lemmas.Settings
import Verif.Props.Fabric
/-!
# C101: attribute definitions and search paths
-/

namespace Netlab
open Spec

/-! ## Data types -/

theorem cdAttr_key (p : List (String × Val)) (copy skip : List String) (a : String × Val) :
    (cdAttr p copy skip a).1 = a.1 := by
  unfold cdAttr
  split
  · rfl
  · split <;> rfl

theorem cdTypes_lookup (p : List (String × Val)) (copy skip : List String) (c : List (String × Val)) (a : String) :
    (c.map (cdAttr p copy skip)).lookup a = (c.lookup a).map (fun v => (cdAttr p copy skip (a, v)).2) := by
  induction c with
  | nil => rfl
  | cons x r ih =>
    obtain ⟨k, v⟩ := x
    simp only [List.map_cons]
    have hk := cdAttr_key p copy skip (k, v)
    by_cases h : a = k
    · subst h
      rw [lookup_cons_self]
      generalize hg : cdAttr p copy skip (a, v) = g at hk
      obtain ⟨g1, g2⟩ := g
      simp only at hk
      subst hk
      rw [lookup_cons_self]
      simp [hg]
    · rw [lookup_cons_ne _ _ h, ← ih]
      generalize cdAttr p copy skip (k, v) = g at hk
      obtain ⟨g1, g2⟩ := g
      simp only at hk
      subst hk
      rw [lookup_cons_ne _ _ h]

theorem cdTypes_dict (parent : Option Val) (c : List (String × Val)) (copy skip : List String) :
    cdTypes parent (some (.dict c)) copy skip = some (.dict (c.map (cdAttr (attrsOf parent) copy skip))) := by
  have hid : c.map (cdAttr [] copy skip) = c := by
    have : ∀ a, cdAttr [] copy skip a = a := by
      intro a
      unfold cdAttr
      split
      · rfl
      · cases a.2 <;> rfl
    conv => rhs; rw [← List.map_id c]
    apply List.map_congr_left
    intro a _
    rw [this]; rfl
  cases parent with
  | none => simp [cdTypes, attrsOf, hid]
  | some v => cases v <;> simp [cdTypes, attrsOf, hid]

theorem cdAttr_skip (p : List (String × Val)) (skip : List String) (a : String) (t : Val) :
    (cdAttr p [] skip (a, t)).2 = firstType [some t, if a ∈ skip then none else p.lookup a] := by
  unfold cdAttr
  by_cases h : a ∈ skip
  · have hne : skip.isEmpty = false := by cases skip with | nil => simp at h | cons _ _ => rfl
    rw [if_pos (by simp [hne, h]), if_pos h]
    cases t <;> rfl
  · rw [if_neg (by simp [h]), if_neg h]
    cases t with
    | null =>
      cases hp : p.lookup a with
      | none => rfl
      | some w => cases w <;> rfl
    | _ => rfl

theorem cdAttr_copy (p : List (String × Val)) (copy : List String) (hc : copy.isEmpty = false) (a : String) (t : Val) :
    (cdAttr p copy [] (a, t)).2 = firstType [some t, if a ∈ copy then p.lookup a else none] := by
  unfold cdAttr
  by_cases h : a ∈ copy
  · rw [if_neg (by simp [h]), if_pos h]
    cases t with
    | null =>
      cases hp : p.lookup a with
      | none => rfl
      | some w => cases w <;> rfl
    | _ => rfl
  · rw [if_pos (by simp [hc, h]), if_neg h]
    cases t <;> rfl

/-- **C101**: every node attribute keeps its own data type; a node attribute without a data type gets the data type of the global attribute unless the propagation is
disabled.  No attributes are added or removed. -/
theorem C101_node_types (glob link intf : Option Val) (n : List (String × Val)) (gno lno ncopy : List String) :
    ∃ n', (adjAttrs glob (some (.dict n)) link intf gno lno ncopy).1 = some (.dict n') ∧
      n'.map (·.1) = n.map (·.1) ∧
      ∀ a t, n.lookup a = some t →
        n'.lookup a = some (firstType [some t, if a ∈ gno then none else (attrsOf glob).lookup a]) := by
  refine ⟨_, cdTypes_dict _ _ _ _, ?_, ?_⟩
  · simp [cdAttr_key]
  · intro a t h
    rw [cdTypes_lookup, h]
    simp [cdAttr_skip]

theorem firstType_three (a b c : Option Val) :
    firstType [some (firstType [a, b]), c] = firstType [a, b, c] := by
  cases a with
  | none =>
    cases b with
    | none => rfl
    | some y => cases y <;> rfl
  | some x =>
    cases x with
    | null =>
      cases b with
      | none => rfl
      | some y => cases y <;> rfl
    | _ => rfl

/-- **C101**: every interface attribute keeps its own data type; an interface attribute without a data type gets the data type of the link attribute unless the propagation is
disabled, or the (final) data type of the node attribute when it is copied from node data into interfaces. -/
theorem C101_interface_types (glob node link : Option Val) (i : List (String × Val)) (gno lno ncopy : List String) :
    ∃ i', (adjAttrs glob node link (some (.dict i)) gno lno ncopy).2 = some (.dict i') ∧
      i'.map (·.1) = i.map (·.1) ∧
      ∀ a t, i.lookup a = some t →
        i'.lookup a = some (firstType [some t,
          if a ∈ lno then none else (attrsOf link).lookup a,
          if a ∈ ncopy then (attrsOf (adjAttrs glob node link (some (.dict i)) gno lno ncopy).1).lookup a else none]) := by
  unfold adjAttrs
  simp only
  rw [cdTypes_dict]
  cases hc : ncopy.isEmpty with
  | true =>
    refine ⟨_, if_pos rfl, ?_, ?_⟩
    · simp [cdAttr_key]
    · intro a t h
      rw [cdTypes_lookup, h]
      have hn : ncopy = [] := by simpa using hc
      subst hn
      simp only [Option.map_some, cdAttr_skip, List.not_mem_nil, if_false]
      rw [← firstType_three]
      congr 1
      generalize firstType [some t, if a ∈ lno then none else List.lookup a (attrsOf link)] = f
      cases f <;> rfl
  | false =>
    rw [if_neg (by simp), cdTypes_dict]
    refine ⟨_, rfl, ?_, ?_⟩
    · simp [cdAttr_key]
    · intro a t h
      rw [cdTypes_lookup, cdTypes_lookup, h]
      simp only [Option.map_some, cdAttr_skip, cdAttr_copy _ _ hc, firstType_three]

example : (adjAttrs (some (.dict [("area", .str "ipv4"), ("x", .str "int")])) (some (.dict [("area", .null), ("x", .null), ("y", .str "bool")]))
      (some (.dict [("cost", .str "int"), ("z", .str "str")])) (some (.dict [("cost", .null), ("area", .null), ("z", .null)])) ["x"] ["z"] ["area"]) =
    (some (.dict [("area", .str "ipv4"), ("x", .null), ("y", .str "bool")]), some (.dict [("cost", .str "int"), ("area", .str "ipv4"), ("z", .null)])) := by rfl

/-! ## Search paths -/

/-- The value of a search path after an adjustment -/
def apOpt (app : Bool) : Option Val → Option Val → Option Val
  | some (.list l), o => some (apList app l o)
  | some (.dict d), some (.dict q) => some (.dict (adjPath app d q))
  | some (.dict d), none => some (.dict (adjPath app d []))
  | _, o => o

theorem adjPath_lookup (app : Bool) (d p : List (String × Val)) (hd : (d.map (·.1)).Nodup) (j : String) :
    (adjPath app d p).lookup j = apOpt app (d.lookup j) (p.lookup j) := by
  induction d generalizing p with
  | nil => cases hp : p.lookup j <;> simp [adjPath, apOpt, hp]
  | cons x r ih =>
    obtain ⟨k, v⟩ := x
    simp only [List.map_cons, List.nodup_cons] at hd
    obtain ⟨hk, hr⟩ := hd
    have hrk : r.lookup k = none := lookup_eq_none_iff.2 hk
    have key : ∃ p', adjPath app ((k, v) :: r) p = adjPath app r p' ∧ p'.lookup j = if j = k then apOpt app (some v) (p.lookup k) else p.lookup j := by
      cases v with
      | list l =>
        refine ⟨_, by rw [adjPath], ?_⟩
        rw [lookup_setKey]
        rfl
      | dict q =>
        refine ⟨_, by rw [adjPath], ?_⟩
        cases hp : p.lookup k with
        | none => rw [lookup_setKey]; rfl
        | some w =>
          cases w with
          | dict q' => simp only; rw [lookup_setKey]; rfl
          | _ =>
            by_cases h : j = k
            · subst h; simp [hp, apOpt]
            · simp [h]
      | _ =>
        refine ⟨p, by rw [adjPath], ?_⟩
        by_cases h : j = k
        · subst h
          rw [if_pos rfl]
          cases p.lookup j <;> rfl
        · simp [h]
    obtain ⟨p', he, hp'⟩ := key
    rw [he, ih p' hr, hp']
    by_cases h : j = k
    · subst h
      rw [if_pos rfl, lookup_cons_self, hrk]
      generalize apOpt app (some v) (List.lookup j p) = o
      cases o <;> rfl
    · rw [if_neg h, lookup_cons_ne _ _ h]

theorem at_cons_dict (d : List (String × Val)) (k : String) (q : List String) :
    Val.at (.dict d) (k :: q) = (d.lookup k).bind (fun w => Val.at w q) := by
  rw [Val.at]
  cases d.lookup k <;> rfl

theorem at_leaf {v w : Val} {q : List String} (hv : v.isDict = false) (h : Val.at v q = some w) : q = [] ∧ w = v := by
  cases q with
  | nil => simp only [Val.at, Option.some.injEq] at h; exact ⟨rfl, h.symm⟩
  | cons k r => cases v <;> simp [Val.at, Val.isDict] at h hv

theorem listAt_cons_dict (d : List (String × Val)) (k : String) (q : List String) :
    listAt (.dict d) (k :: q) = ((d.lookup k).map (fun w => listAt w q)).getD [] := by
  unfold listAt
  rw [at_cons_dict]
  cases d.lookup k <;> rfl

/-- One adjustment, a list that exists -/
theorem adjPath_list (app : Bool) (q : List String) : ∀ (d p : List (String × Val)) (o : List Val), Val.UniqueKeys (.dict d) →
    Val.at (.dict p) q = some (.list o) →
    Val.at (.dict (adjPath app d p)) q = some (.list (if app then o ++ listAt (.dict d) q else listAt (.dict d) q ++ o)) := by
  induction q with
  | nil => intro d p o _ h; simp [Val.at] at h
  | cons k r ih =>
    intro d p o hd h
    rw [uniqueKeys_dict] at hd
    rw [at_cons_dict] at h ⊢
    rw [adjPath_lookup _ _ _ hd.1, listAt_cons_dict]
    cases hp : p.lookup k with
    | none => simp [hp] at h
    | some w =>
      rw [hp] at h
      simp only [Option.bind_some] at h
      cases hdk : d.lookup k with
      | none => simp [apOpt, h]
      | some v =>
        have hl : w.isDict = false → r = [] ∧ w = .list o := fun hw => by
          obtain ⟨h1, h2⟩ := at_leaf hw h; exact ⟨h1, h2.symm⟩
        cases v with
        | list l =>
          cases w with
          | dict q' =>
            have : r ≠ [] := by rintro rfl; simp [Val.at] at h
            have hz : listAt (.list l) r = [] := by
              cases r with
              | nil => exact absurd rfl this
              | cons _ _ => rfl
            simp [apOpt, apList, h, hz]
          | _ =>
            obtain ⟨rfl, hw⟩ := hl rfl
            simp only [Val.list.injEq, reduceCtorEq] at hw
            all_goals (try subst hw)
            all_goals (cases app <;> simp [apOpt, apList, Val.at, listAt])
        | dict d' =>
          cases w with
          | dict q' =>
            simp only [apOpt, Option.bind_some, Option.map_some, Option.getD_some]
            exact ih d' q' o (hd.2 k _ hdk) h
          | _ =>
            obtain ⟨rfl, hw⟩ := hl rfl
            simp only [Val.list.injEq, reduceCtorEq] at hw
            all_goals (try subst hw)
            all_goals (cases app <;> simp [apOpt, Val.at, listAt])
        | _ =>
          simp only [apOpt, Option.bind_some, Option.map_some, Option.getD_some, h]
          rw [show listAt _ r = [] from by cases r <;> rfl]
          cases app <;> simp

/-- One adjustment, a value that is neither a list nor a dictionary -/
theorem adjPath_scalar (app : Bool) (q : List String) : ∀ (d p : List (String × Val)) (w : Val), Val.UniqueKeys (.dict d) →
    Val.leafAt (.dict p) q w → (∀ l, w ≠ .list l) → Val.at (.dict (adjPath app d p)) q = some w := by
  induction q with
  | nil =>
    intro d p w _ h _
    obtain ⟨h1, h2⟩ := h
    simp only [Val.at, Option.some.injEq] at h1
    subst h1
    simp [Val.isDict] at h2
  | cons k r ih =>
    intro d p w hd h hl
    obtain ⟨h1, h2⟩ := h
    rw [uniqueKeys_dict] at hd
    rw [at_cons_dict] at h1 ⊢
    rw [adjPath_lookup _ _ _ hd.1]
    cases hp : p.lookup k with
    | none => simp [hp] at h1
    | some x =>
      rw [hp] at h1
      simp only [Option.bind_some] at h1
      cases hdk : d.lookup k with
      | none => simp [apOpt, h1]
      | some v =>
        cases v with
        | list l =>
          cases x with
          | list o =>
            obtain ⟨_, rfl⟩ := at_leaf rfl h1
            exact absurd rfl (hl o)
          | _ => simp [apOpt, apList, h1]
        | dict d' =>
          cases x with
          | dict q' =>
            simp only [apOpt, Option.bind_some]
            exact ih d' q' w (hd.2 k _ hdk) ⟨h1, h2⟩ hl
          | _ => simp [apOpt, h1]
        | _ => simp [apOpt, h1]

/-- One adjustment, a list that does not exist yet -/
theorem adjPath_new (app : Bool) (q : List String) : ∀ (d p : List (String × Val)) (l : List Val), Val.UniqueKeys (.dict d) →
    Untouched (.dict p) q → Val.at (.dict d) q = some (.list l) → Val.at (.dict (adjPath app d p)) q = some (.list l) := by
  induction q with
  | nil => intro d p l _ _ h; simp [Val.at] at h
  | cons k r ih =>
    intro d p l hd hu h
    rw [uniqueKeys_dict] at hd
    rw [untouched_cons_dict] at hu
    rw [at_cons_dict] at h ⊢
    rw [adjPath_lookup _ _ _ hd.1]
    cases hdk : d.lookup k with
    | none => simp [hdk] at h
    | some v =>
      rw [hdk] at h
      simp only [Option.bind_some] at h
      cases v with
      | dict d' =>
        have hr : r ≠ [] := by rintro rfl; simp [Val.at] at h
        cases hp : p.lookup k with
        | none =>
          simp only [apOpt, Option.bind_some]
          refine ih d' [] l (hd.2 k _ hdk) ?_ h
          cases r with
          | nil => exact absurd rfl hr
          | cons j r' => rw [untouched_cons_dict]; intro w hw; simp at hw
        | some x =>
          have hx := hu x hp
          cases x with
          | dict q' =>
            simp only [apOpt, Option.bind_some]
            exact ih d' q' l (hd.2 k _ hdk) hx h
          | _ => exact absurd hx (not_untouched_leaf rfl _)
      | list l' =>
        obtain ⟨rfl, he⟩ := at_leaf rfl h
        cases hp : p.lookup k with
        | none => simp [apOpt, apList, he, Val.at]
        | some x => exact absurd (hu x hp) (not_untouched_nil _)
      | _ => obtain ⟨rfl, he⟩ := at_leaf rfl h; simp at he

/-- One adjustment, a path neither the search paths nor the adjustment mention -/
theorem adjPath_untouched (app : Bool) (q : List String) : ∀ (d p : List (String × Val)), Val.UniqueKeys (.dict d) →
    Untouched (.dict p) q → Untouched (.dict d) q → Untouched (.dict (adjPath app d p)) q := by
  induction q with
  | nil => intro d p _ h _; exact absurd h (not_untouched_nil _)
  | cons k r ih =>
    intro d p hd hp hdu
    rw [uniqueKeys_dict] at hd
    rw [untouched_cons_dict] at hp hdu ⊢
    intro w hw
    rw [adjPath_lookup _ _ _ hd.1] at hw
    cases hdk : d.lookup k with
    | none => rw [hdk] at hw; simp only [apOpt] at hw; exact hp w hw
    | some v =>
      have hv := hdu v hdk
      rw [hdk] at hw
      cases v with
      | dict d' =>
        cases hpk : p.lookup k with
        | none =>
          simp only [hpk, apOpt, Option.some.injEq] at hw
          subst hw
          refine ih d' [] (hd.2 k _ hdk) ?_ hv
          cases r with
          | nil => exact absurd hv (not_untouched_nil _)
          | cons j r' => rw [untouched_cons_dict]; intro w hw; simp at hw
        | some x =>
          have hx := hp x hpk
          cases x with
          | dict q' =>
            simp only [hpk, apOpt, Option.some.injEq] at hw
            subst hw
            exact ih d' q' (hd.2 k _ hdk) hx hv
          | _ => exact absurd hx (not_untouched_leaf rfl _)
      | _ => exact absurd hv (not_untouched_leaf rfl _)

/-- One adjustment: nothing is invented -/
theorem adjPath_from (app : Bool) (q : List String) : ∀ (d p : List (String × Val)) (w : Val), Val.UniqueKeys (.dict d) →
    Val.leafAt (.dict (adjPath app d p)) q w → Val.leafAt (.dict p) q w ∨
      (∃ l, Val.at (.dict d) q = some (.list l)) := by
  induction q with
  | nil =>
    intro d p w _ h
    obtain ⟨h1, h2⟩ := h
    simp only [Val.at, Option.some.injEq] at h1
    subst h1
    simp [Val.isDict] at h2
  | cons k r ih =>
    intro d p w hd h
    obtain ⟨h1, h2⟩ := h
    rw [uniqueKeys_dict] at hd
    unfold Val.leafAt
    rw [at_cons_dict] at h1 ⊢
    rw [adjPath_lookup _ _ _ hd.1] at h1
    rw [at_cons_dict]
    cases hdk : d.lookup k with
    | none => rw [hdk] at h1; exact Or.inl ⟨h1, h2⟩
    | some v =>
      rw [hdk] at h1
      simp only [Option.bind_some]
      cases v with
      | dict d' =>
        cases hpk : p.lookup k with
        | none =>
          simp only [hpk, apOpt, Option.bind_some] at h1
          rcases ih d' [] w (hd.2 k _ hdk) ⟨h1, h2⟩ with ⟨h3, h4⟩ | h3
          · exfalso
            cases r with
            | nil => simp only [Val.at, Option.some.injEq] at h3; subst h3; simp [Val.isDict] at h4
            | cons j r' => simp [at_cons_dict] at h3
          · exact Or.inr h3
        | some x =>
          cases x with
          | dict q' =>
            simp only [hpk, apOpt, Option.bind_some] at h1
            rcases ih d' q' w (hd.2 k _ hdk) ⟨h1, h2⟩ with h3 | h3
            · exact Or.inl h3
            · exact Or.inr h3
          | _ => rw [hpk] at h1; exact Or.inl ⟨h1, h2⟩
      | list l =>
        simp only [apOpt, Option.bind_some] at h1
        cases hpk : p.lookup k with
        | none =>
          rw [hpk] at h1
          obtain ⟨rfl, _⟩ := at_leaf rfl h1
          exact Or.inr ⟨l, rfl⟩
        | some x =>
          rw [hpk] at h1
          cases x with
          | list o =>
            obtain ⟨rfl, _⟩ := at_leaf rfl h1
            exact Or.inr ⟨l, rfl⟩
          | _ => exact Or.inl ⟨h1, h2⟩
      | _ => exact Or.inl ⟨h1, h2⟩

/-- A path that does not start with the name of the adjustment -/
theorem head_ne_cons {k key : String} {r : List String} (h : k ≠ key) : (k :: r).head? ≠ some key := by
  simpa using h

theorem apPass_cases (app : Bool) (key : String) (paths : List (String × Val)) :
    (∃ d, paths.lookup key = some (.dict d) ∧ apPass app key paths = popKey (adjPath app d paths) key) ∨
      ((∀ d, paths.lookup key ≠ some (.dict d)) ∧ apPass app key paths = paths) := by
  unfold apPass
  split
  · rename_i d h
    exact Or.inl ⟨d, h, rfl⟩
  · rename_i h
    exact Or.inr ⟨h, rfl⟩

theorem listAt_nodict {v : Val} (h : v.isDict = false) (k : String) (r : List String) : listAt v (k :: r) = [] := by
  cases v <;> simp [listAt, Val.at, Val.isDict] at h ⊢

theorem getD_nodict {o : Option Val} (h : ∀ d, o ≠ some (.dict d)) : (o.getD .null).isDict = false := by
  cases o with
  | none => rfl
  | some v => cases v <;> simp [Val.isDict] at h ⊢

theorem apPass_list (app : Bool) (key : String) (paths : List (String × Val)) (hu : Val.UniqueKeys (.dict paths))
    (k : String) (r : List String) (hk : k ≠ key) (o : List Val) (h : Val.at (.dict paths) (k :: r) = some (.list o)) :
    Val.at (.dict (apPass app key paths)) (k :: r) =
      some (.list (if app then o ++ listAt ((paths.lookup key).getD .null) (k :: r) else listAt ((paths.lookup key).getD .null) (k :: r) ++ o)) := by
  rcases apPass_cases app key paths with ⟨d, hd, he⟩ | ⟨hd, he⟩
  · rw [he, at_popKey (head_ne_cons hk) (by simp), hd]
    exact adjPath_list app _ d paths o ((uniqueKeys_dict.1 hu).2 _ _ hd) h
  · rw [he, h, listAt_nodict (getD_nodict hd)]
    cases app <;> simp

theorem apPass_scalar (app : Bool) (key : String) (paths : List (String × Val)) (hu : Val.UniqueKeys (.dict paths))
    (k : String) (r : List String) (hk : k ≠ key) (w : Val) (h : Val.leafAt (.dict paths) (k :: r) w) (hl : ∀ l, w ≠ .list l) :
    Val.at (.dict (apPass app key paths)) (k :: r) = some w := by
  rcases apPass_cases app key paths with ⟨d, hd, he⟩ | ⟨hd, he⟩
  · rw [he, at_popKey (head_ne_cons hk) (by simp)]
    exact adjPath_scalar app _ d paths w ((uniqueKeys_dict.1 hu).2 _ _ hd) h hl
  · rw [he, h.1]

theorem apPass_new (app : Bool) (key : String) (paths : List (String × Val)) (hu : Val.UniqueKeys (.dict paths))
    (k : String) (r : List String) (hk : k ≠ key) (l : List Val) (hn : Untouched (.dict paths) (k :: r))
    (h : Val.at ((paths.lookup key).getD .null) (k :: r) = some (.list l)) :
    Val.at (.dict (apPass app key paths)) (k :: r) = some (.list l) := by
  rcases apPass_cases app key paths with ⟨d, hd, he⟩ | ⟨hd, he⟩
  · rw [hd] at h
    rw [he, at_popKey (head_ne_cons hk) (by simp)]
    exact adjPath_new app _ d paths l ((uniqueKeys_dict.1 hu).2 _ _ hd) hn h
  · have := at_leaf (getD_nodict hd) h
    simp at this

theorem apPass_untouched (app : Bool) (key : String) (paths : List (String × Val)) (hu : Val.UniqueKeys (.dict paths))
    (k : String) (r : List String) (hk : k ≠ key) (hn : Untouched (.dict paths) (k :: r))
    (h : ∀ d, paths.lookup key = some (.dict d) → Untouched (.dict d) (k :: r)) :
    Untouched (.dict (apPass app key paths)) (k :: r) := by
  rcases apPass_cases app key paths with ⟨d, hd, he⟩ | ⟨hd, he⟩
  · rw [he, untouched_popKey (head_ne_cons hk)]
    exact adjPath_untouched app _ d paths ((uniqueKeys_dict.1 hu).2 _ _ hd) hn (h d hd)
  · rw [he]; exact hn

theorem apPass_from (app : Bool) (key : String) (paths : List (String × Val)) (hu : Val.UniqueKeys (.dict paths))
    (k : String) (r : List String) (hk : k ≠ key) (w : Val) (h : Val.leafAt (.dict (apPass app key paths)) (k :: r) w) :
    Val.leafAt (.dict paths) (k :: r) w ∨ ∃ l, Val.at ((paths.lookup key).getD .null) (k :: r) = some (.list l) := by
  rcases apPass_cases app key paths with ⟨d, hd, he⟩ | ⟨hd, he⟩
  · rw [he] at h
    unfold Val.leafAt at h
    rw [at_popKey (head_ne_cons hk) (by simp)] at h
    rw [hd]
    exact adjPath_from app _ d paths w ((uniqueKeys_dict.1 hu).2 _ _ hd) h
  · rw [he] at h; exact Or.inl h

theorem nodup_adjPath (app : Bool) (d p : List (String × Val)) (hp : (p.map (·.1)).Nodup) :
    ((adjPath app d p).map (·.1)).Nodup := by
  induction d generalizing p with
  | nil => simpa [adjPath] using hp
  | cons x r ih =>
    obtain ⟨k, v⟩ := x
    cases v with
    | list l => rw [adjPath]; exact ih _ (nodup_setKey hp _ _)
    | dict q =>
      rw [adjPath]
      apply ih
      split
      · exact nodup_setKey hp _ _
      · exact nodup_setKey hp _ _
      · exact hp
    | _ => rw [adjPath]; exact ih _ hp

theorem uniqueKeys_adjPath (app : Bool) : ∀ (n : Nat) (d p : List (String × Val)), sizeOf d < n →
    Val.UniqueKeys (.dict d) → Val.UniqueKeys (.dict p) → Val.UniqueKeys (.dict (adjPath app d p)) := by
  intro n
  induction n with
  | zero => intro d p h; omega
  | succ n ih =>
    intro d p hn hd hp
    have hd' := uniqueKeys_dict.1 hd
    have hp' := uniqueKeys_dict.1 hp
    rw [uniqueKeys_dict]
    refine ⟨nodup_adjPath app d p hp'.1, ?_⟩
    intro k v hv
    rw [adjPath_lookup _ _ _ hd'.1] at hv
    cases hdk : d.lookup k with
    | none => rw [hdk] at hv; exact hp'.2 k v hv
    | some x =>
      rw [hdk] at hv
      have hs := sizeOf_lookup_lt hdk
      cases x with
      | dict q =>
        have hq : sizeOf q < n := by simp at hs; omega
        cases hpk : p.lookup k with
        | none =>
          simp only [hpk, apOpt, Option.some.injEq] at hv
          subst hv
          exact ih q [] hq (hd'.2 k _ hdk) (uniqueKeys_dict.2 ⟨by simp, by simp⟩)
        | some w =>
          cases w with
          | dict y =>
            simp only [hpk, apOpt, Option.some.injEq] at hv
            subst hv
            exact ih q y hq (hd'.2 k _ hdk) (hp'.2 k _ hpk)
          | _ => rw [hpk] at hv; exact hp'.2 k v (by rw [hpk]; exact hv)
      | list l =>
        simp only [apOpt, Option.some.injEq] at hv
        subst hv
        cases hpk : p.lookup k with
        | none => exact uniqueKeys_leaf rfl
        | some w =>
          cases w with
          | dict y => exact hp'.2 k _ hpk
          | _ => exact uniqueKeys_leaf rfl
      | _ => exact hp'.2 k v hv

theorem uniqueKeys_apPass (app : Bool) (key : String) (paths : List (String × Val)) (hu : Val.UniqueKeys (.dict paths)) :
    Val.UniqueKeys (.dict (apPass app key paths)) := by
  rcases apPass_cases app key paths with ⟨d, hd, he⟩ | ⟨hd, he⟩
  · rw [he]
    have h := uniqueKeys_dict.1 (uniqueKeys_adjPath app _ d paths (Nat.lt_succ_self _) ((uniqueKeys_dict.1 hu).2 _ _ hd) hu)
    rw [uniqueKeys_dict]
    refine ⟨?_, ?_⟩
    · have : (popKey (adjPath app d paths) key).map (·.1) = ((adjPath app d paths).map (·.1)).filter (fun x => x != key) := by
        simp [popKey, List.filter_map, Function.comp_def]
      rw [this]
      exact h.1.filter _
    · intro k v hv
      rw [lookup_popKey] at hv
      split at hv
      · simp at hv
      · exact h.2 k v hv
  · rw [he]; exact hu

/-- Prepending does not change the paths to append unless a search path is called `append` -/
theorem apPass_append (paths : List (String × Val)) (hu : Val.UniqueKeys (.dict paths))
    (hn : (attrsOf (paths.lookup "prepend")).lookup "append" = none) :
    (apPass false "prepend" paths).lookup "append" = paths.lookup "append" := by
  rcases apPass_cases false "prepend" paths with ⟨d, hd, he⟩ | ⟨hd, he⟩
  · rw [hd] at hn
    have h := uniqueKeys_dict.1 ((uniqueKeys_dict.1 hu).2 _ _ hd)
    simp only [attrsOf] at hn
    rw [he, lookup_popKey, if_neg (by decide), adjPath_lookup _ _ _ h.1, hn]
    cases paths.lookup "append" <;> rfl
  · rw [he]

/-- **C101**: every search path that is a list is the list of prepended directories, the directories that were already there, and the list of appended directories.  Values
that are not lists don't change. -/
theorem C101_search_paths (paths : List (String × Val)) (hu : Val.UniqueKeys (.dict paths))
    (hn : (attrsOf (paths.lookup "prepend")).lookup "append" = none) (k : String) (r : List String) (h1 : k ≠ "prepend") (h2 : k ≠ "append") :
    (∀ o, Val.at (.dict paths) (k :: r) = some (.list o) →
      Val.at (.dict (adjPaths paths)) (k :: r) = some (.list
        (listAt ((paths.lookup "prepend").getD .null) (k :: r) ++ o ++ listAt ((paths.lookup "append").getD .null) (k :: r)))) ∧
    (∀ w, Val.leafAt (.dict paths) (k :: r) w → (∀ l, w ≠ .list l) → Val.at (.dict (adjPaths paths)) (k :: r) = some w) := by
  have hu' := uniqueKeys_apPass false "prepend" paths hu
  have ha := apPass_append paths hu hn
  constructor
  · intro o h
    have h3 := apPass_list false "prepend" paths hu k r h1 o h
    have h4 := apPass_list true "append" _ hu' k r h2 _ h3
    rw [ha] at h4
    exact h4
  · intro w h hl
    have h3 := apPass_scalar false "prepend" paths hu k r h1 w h hl
    exact apPass_scalar true "append" _ hu' k r h2 w ⟨h3, h.2⟩ hl

/-- **C101**: prepended or appended directories of a search path that does not exist create the search path; no other search paths appear. -/
theorem C101_new_search_paths (paths : List (String × Val)) (hu : Val.UniqueKeys (.dict paths))
    (hn : (attrsOf (paths.lookup "prepend")).lookup "append" = none) (k : String) (r : List String) (h1 : k ≠ "prepend") (h2 : k ≠ "append") :
    (Untouched (.dict paths) (k :: r) →
      (∀ l, Val.at ((paths.lookup "prepend").getD .null) (k :: r) = some (.list l) →
        Val.at (.dict (adjPaths paths)) (k :: r) = some (.list (l ++ listAt ((paths.lookup "append").getD .null) (k :: r)))) ∧
      (∀ l, (∀ d, paths.lookup "prepend" = some (.dict d) → Untouched (.dict d) (k :: r)) →
        Val.at ((paths.lookup "append").getD .null) (k :: r) = some (.list l) →
        Val.at (.dict (adjPaths paths)) (k :: r) = some (.list l))) ∧
    (∀ w, Val.leafAt (.dict (adjPaths paths)) (k :: r) w →
      Val.leafAt (.dict paths) (k :: r) w ∨
      (∃ l, Val.at ((paths.lookup "prepend").getD .null) (k :: r) = some (.list l)) ∨
      (∃ l, Val.at ((paths.lookup "append").getD .null) (k :: r) = some (.list l))) := by
  have hu' := uniqueKeys_apPass false "prepend" paths hu
  have ha := apPass_append paths hu hn
  refine ⟨fun hun => ⟨?_, ?_⟩, ?_⟩
  · intro l h
    have h3 := apPass_new false "prepend" paths hu k r h1 l hun h
    have h4 := apPass_list true "append" _ hu' k r h2 _ h3
    rw [ha] at h4
    exact h4
  · intro l hp h
    have h3 := apPass_untouched false "prepend" paths hu k r h1 hun hp
    exact apPass_new true "append" _ hu' k r h2 l h3 (by rw [ha]; exact h)
  · intro w h
    rcases apPass_from true "append" _ hu' k r h2 w h with h3 | h3
    · rcases apPass_from false "prepend" paths hu k r h1 w h3 with h4 | h4
      · exact Or.inl h4
      · exact Or.inr (Or.inl h4)
    · rw [ha] at h3
      exact Or.inr (Or.inr h3)

example : adjPaths [("custom", .dict [("dirs", .list [.str "package:x"])]), ("prepend", .dict [("custom", .dict [("dirs", .list [.str "."])])]),
      ("append", .dict [("custom", .dict [("dirs", .list [.str "z"])]), ("t", .list [.str "q"])])] =
    [("custom", .dict [("dirs", .list [.str ".", .str "package:x", .str "z"])]), ("t", .list [.str "q"])] := by
  simp [adjPaths, apPass, adjPath, apList, setKey, popKey, List.lookup]

/-! ## Copied and merged definitions -/

/-- The definition of an attribute after its request has been processed -/
def cmFinal (attr : List (String × Val)) (ns name : String) : Option Val :=
  match (attrAt attr ns name).map cmReq with
  | some (.src s copy) =>
    match attr.lookup s with
    | some (.dict b) => cmValue copy ((b.lookup name).getD (.dict [])) ((attrAt attr ns name).getD .null)
    | _ => attrAt attr ns name
  | _ => attrAt attr ns name

/-- Is the request incorrect? -/
def cmBad (attr : List (String × Val)) (ns name : String) : Nat :=
  match (attrAt attr ns name).map cmReq with
  | some (.src s _) => if (attr.lookup s).any Val.isDict then 0 else 1
  | some .bad => 1
  | _ => 0

theorem attrAt_attrSet (attr : List (String × Val)) (ns name : String) (v : Val) (h : (attrAt attr ns name).isSome = true) (n m : String) :
    attrAt (attrSet attr ns name v) n m = if n = ns ∧ m = name then some v else attrAt attr n m := by
  unfold attrSet
  unfold attrAt at h
  cases ha : attr.lookup ns with
  | none => simp [ha] at h
  | some x =>
    cases x with
    | dict a =>
      simp only
      unfold attrAt
      rw [lookup_setKey]
      by_cases hn : n = ns
      · subst hn
        simp only [if_true, true_and, lookup_setKey, ha]
      · simp [hn]
    | _ => simp [ha] at h

theorem attrSet_ns (attr : List (String × Val)) (ns name : String) (v : Val) (n : String) :
    ((attrSet attr ns name v).lookup n).any Val.isDict = (attr.lookup n).any Val.isDict ∧
      ((attr.lookup n).any Val.isDict = false → (attrSet attr ns name v).lookup n = attr.lookup n) := by
  unfold attrSet
  split
  · rename_i a ha
    rw [lookup_setKey]
    by_cases hn : n = ns
    · subst hn; simp [ha, Val.isDict]
    · simp [hn]
  · simp

theorem mem_cmPairs (attr : List (String × Val)) (hu : Val.UniqueKeys (.dict attr)) (n m : String) :
    (n, m) ∈ cmPairs attr ↔ (attrAt attr n m).isSome = true := by
  have hu' := uniqueKeys_dict.1 hu
  unfold cmPairs attrAt
  rw [List.mem_flatMap]
  constructor
  · rintro ⟨⟨k, v⟩, hp, hm⟩
    cases v with
    | dict a =>
      simp only [List.mem_map, Prod.mk.injEq] at hm
      obtain ⟨q, hq, rfl, rfl⟩ := hm
      rw [lookup_of_mem hu'.1 hp]
      simp only
      cases hl : a.lookup q.1 with
      | none => exact absurd (List.mem_map_of_mem hq) (lookup_eq_none_iff.1 hl)
      | some _ => rfl
    | _ => simp at hm
  · intro h
    cases hl : attr.lookup n with
    | none => simp [hl] at h
    | some v =>
      cases v with
      | dict a =>
        simp only [hl] at h
        obtain ⟨w, hw⟩ := Option.isSome_iff_exists.1 h
        refine ⟨(n, .dict a), mem_of_lookup hl, ?_⟩
        simp only [List.mem_map, Prod.mk.injEq]
        exact ⟨(m, w), mem_of_lookup hw, trivial, rfl⟩
      | _ => simp [hl] at h

theorem nodup_cmPairs (attr : List (String × Val)) (hu : Val.UniqueKeys (.dict attr)) : (cmPairs attr).Nodup := by
  have hu' := uniqueKeys_dict.1 hu
  have hm : ∀ p ∈ attr, ∀ a, p.2 = .dict a → (a.map (·.1)).Nodup := by
    intro p hp a ha
    have := hu'.2 p.1 p.2 (lookup_of_mem hu'.1 hp)
    rw [ha] at this
    exact (uniqueKeys_dict.1 this).1
  have hk := hu'.1
  clear hu hu'
  unfold cmPairs
  induction attr with
  | nil => simp
  | cons x r ih =>
    simp only [List.map_cons, List.nodup_cons] at hk
    rw [List.flatMap_cons, List.nodup_append]
    refine ⟨?_, ih (fun p hp => hm p (by simp [hp])) hk.2, ?_⟩
    · split
      · rename_i a ha
        have := hm x (by simp) a ha
        have h2 : (a.map (fun q => (x.1, q.1))) = (a.map (·.1)).map (fun q => (x.1, q)) := by simp
        rw [h2]
        unfold List.Nodup at this ⊢
        rw [List.pairwise_map]
        exact this.imp (fun h e => h (by simpa using e))
      · simp
    · intro p hp q hq he
      subst he
      rw [List.mem_flatMap] at hq
      obtain ⟨y, hy, hq⟩ := hq
      have e1 : p.1 = x.1 := by
        split at hp
        · simp only [List.mem_map] at hp; obtain ⟨_, _, rfl⟩ := hp; rfl
        · simp at hp
      have e2 : p.1 = y.1 := by
        split at hq
        · simp only [List.mem_map] at hq; obtain ⟨_, _, rfl⟩ := hq; rfl
        · simp at hq
      exact hk.1 (List.mem_map.2 ⟨y, hy, by rw [← e2, e1]⟩)

/-- No request copies or merges a definition that is itself a request -/
def NoChainsM (attr : List (String × Val)) : Prop :=
  ∀ ns name v s c, attrAt attr ns name = some v → cmReq v = .src s c →
    ∀ w, attrAt attr s name = some w → ∀ t e, cmReq w ≠ .src t e

/-- The state of the loop -/
def CmInv (a0 a : List (String × Val)) (done : List (String × String)) : Prop :=
  (∀ n m, attrAt a n m = if (n, m) ∈ done then cmFinal a0 n m else attrAt a0 n m) ∧
  (∀ n, (a.lookup n).any Val.isDict = (a0.lookup n).any Val.isDict ∧ ((a0.lookup n).any Val.isDict = false → a.lookup n = a0.lookup n))

theorem cmFinal_nosrc (attr : List (String × Val)) (ns name : String)
    (h : ∀ w, attrAt attr ns name = some w → ∀ t e, cmReq w ≠ .src t e) : cmFinal attr ns name = attrAt attr ns name := by
  unfold cmFinal
  split
  · rename_i s c hs
    cases ha : attrAt attr ns name with
    | none => simp [ha] at hs
    | some w =>
      rw [ha] at hs
      simp only [Option.map_some, Option.some.injEq] at hs
      exact absurd hs (h w ha s c)
  · rfl

theorem attrAt_dict {a : List (String × Val)} {s : String} {b : List (String × Val)} (h : a.lookup s = some (.dict b)) (m : String) :
    attrAt a s m = b.lookup m := by
  unfold attrAt
  rw [h]

theorem any_isDict {o : Option Val} : o.any Val.isDict = true ↔ ∃ b, o = some (.dict b) := by
  cases o with
  | none => simp
  | some v => cases v <;> simp [Val.isDict]

theorem cmStep_inv {a0 a : List (String × Val)} {done : List (String × String)} (hc : NoChainsM a0) (hi : CmInv a0 a done)
    (ns name : String) (hd : (ns, name) ∉ done) (hs : (attrAt a0 ns name).isSome = true) :
    (cmStep a ns name = none ∧ cmFinal a0 ns name = none) ∨
    ∃ a', cmStep a ns name = some (a', cmBad a0 ns name) ∧ (cmFinal a0 ns name).isSome = true ∧ CmInv a0 a' ((ns, name) :: done) := by
  obtain ⟨v, hv⟩ := Option.isSome_iff_exists.1 hs
  have hav : attrAt a ns name = some v := by rw [hi.1, if_neg hd, hv]
  -- the invariant when the definition does not change
  have same : cmFinal a0 ns name = some v → CmInv a0 a ((ns, name) :: done) := by
    intro hf
    refine ⟨?_, hi.2⟩
    intro n m
    rw [hi.1]
    by_cases hnm : (n, m) = (ns, name)
    · simp only [Prod.mk.injEq] at hnm
      obtain ⟨rfl, rfl⟩ := hnm
      rw [if_neg hd, if_pos (by simp), hf, hv]
    · by_cases h2 : (n, m) ∈ done
      · rw [if_pos h2, if_pos (List.mem_cons_of_mem _ h2)]
      · rw [if_neg h2, if_neg (by simp only [List.mem_cons, not_or]; exact ⟨hnm, h2⟩)]
  cases hr : cmReq v with
  | none =>
    right
    have hf : cmFinal a0 ns name = some v := by simp [cmFinal, hv, hr]
    exact ⟨a, by simp [cmStep, hav, hr, cmBad, hv], by rw [hf]; rfl, same hf⟩
  | bad =>
    right
    have hf : cmFinal a0 ns name = some v := by simp [cmFinal, hv, hr]
    exact ⟨a, by simp [cmStep, hav, hr, cmBad, hv], by rw [hf]; rfl, same hf⟩
  | src s c =>
    have hns := hi.2 s
    cases hx : (a0.lookup s).any Val.isDict with
    | false =>
      right
      have hnd : ∀ b, a0.lookup s ≠ some (.dict b) := by
        intro b hb
        rw [any_isDict.2 ⟨b, hb⟩] at hx
        simp at hx
      have hl := hns.2 hx
      have hf : cmFinal a0 ns name = some v := by
        unfold cmFinal
        simp only [hv, Option.map_some, hr]
      exact ⟨a, by
        unfold cmStep cmBad
        simp only [hav, hv, Option.map_some, hr, hx, hl]
        simp, by rw [hf]; rfl, same hf⟩
    | true =>
      obtain ⟨b0, hb0⟩ := any_isDict.1 hx
      obtain ⟨b, hb⟩ := any_isDict.1 (hns.1.trans hx)
      have hsrc : b.lookup name = b0.lookup name := by
        rw [← attrAt_dict hb, hi.1, ← attrAt_dict hb0]
        split
        · exact cmFinal_nosrc a0 s name (fun w hw => hc ns name v s c hv hr w hw)
        · rfl
      have hf : cmFinal a0 ns name = cmValue c ((b0.lookup name).getD (.dict [])) v := by
        unfold cmFinal
        simp [hv, hr, hb0]
      have hst : cmStep a ns name = (cmFinal a0 ns name).map (fun v => (attrSet a ns name v, 0)) := by
        unfold cmStep
        rw [hf]
        simp [hav, hr, hb, hsrc]
      have hbd : cmBad a0 ns name = 0 := by
        unfold cmBad
        simp only [hv, Option.map_some, hr, hx, if_true]
      cases hfv : cmFinal a0 ns name with
      | none => left; rw [hst, hfv]; exact ⟨rfl, rfl⟩
      | some u =>
        right
        refine ⟨attrSet a ns name u, by rw [hst, hfv, hbd]; rfl, rfl, ?_, ?_⟩
        · intro n m
          rw [attrAt_attrSet a ns name u (by rw [hav]; rfl), hi.1]
          by_cases hnm : n = ns ∧ m = name
          · obtain ⟨rfl, rfl⟩ := hnm
            rw [if_pos ⟨rfl, rfl⟩, if_pos (by simp), hfv]
          · rw [if_neg hnm]
            by_cases h2 : (n, m) ∈ done
            · rw [if_pos h2, if_pos (List.mem_cons_of_mem _ h2)]
            · rw [if_neg h2, if_neg (by simp only [List.mem_cons, not_or, Prod.mk.injEq]; exact ⟨hnm, h2⟩)]
        · intro n
          have h3 := attrSet_ns a ns name u n
          have h4 := hi.2 n
          refine ⟨h3.1.trans h4.1, fun h => ?_⟩
          rw [h3.2 (h4.1.trans h), h4.2 h]

theorem cmLoop_inv {a0 : List (String × Val)} (hc : NoChainsM a0) (ps : List (String × String)) :
    ∀ (a : List (String × Val)) (done : List (String × String)), CmInv a0 a done → (∀ p ∈ ps, p ∉ done) → ps.Nodup →
      (∀ p ∈ ps, (attrAt a0 p.1 p.2).isSome = true) →
      (cmLoop ps a = none ∧ ∃ p ∈ ps, cmFinal a0 p.1 p.2 = none) ∨
      ∃ a', cmLoop ps a = some (a', (ps.map (fun p => cmBad a0 p.1 p.2)).sum) ∧ (∀ p ∈ ps, (cmFinal a0 p.1 p.2).isSome = true) ∧
        CmInv a0 a' (ps.reverse ++ done) := by
  induction ps with
  | nil => intro a done hi _ _ _; exact Or.inr ⟨a, rfl, by simp, by simpa using hi⟩
  | cons p r ih =>
    intro a done hi hd hn hs
    rw [List.nodup_cons] at hn
    rcases cmStep_inv hc hi p.1 p.2 (hd p (by simp)) (hs p (by simp)) with ⟨h1, h2⟩ | ⟨a', h1, h2, h3⟩
    · left
      exact ⟨by rw [cmLoop, h1], p, by simp, h2⟩
    · have hd' : ∀ q ∈ r, q ∉ (p.1, p.2) :: done := by
        intro q hq
        simp only [List.mem_cons, not_or]
        exact ⟨fun e => hn.1 (by rw [show q = p from e] at hq; exact hq), hd q (by simp [hq])⟩
      rcases ih a' _ h3 hd' hn.2 (fun q hq => hs q (by simp [hq])) with ⟨h4, q, hq, h5⟩ | ⟨a'', h4, h5, h6⟩
      · left
        exact ⟨by rw [cmLoop, h1]; simp only [h4], q, by simp [hq], h5⟩
      · right
        refine ⟨a'', by rw [cmLoop, h1]; simp [h4], ?_, by simpa using h6⟩
        intro q hq
        rcases List.mem_cons.1 hq with rfl | hq
        · exact h2
        · exact h5 q hq

theorem cmAll_spec {attr : List (String × Val)} (hu : Val.UniqueKeys (.dict attr)) (hc : NoChainsM attr) :
    (cmAll attr = none ∧ ∃ p ∈ cmPairs attr, cmFinal attr p.1 p.2 = none) ∨
    ∃ a', cmAll attr = some (a', ((cmPairs attr).map (fun p => cmBad attr p.1 p.2)).sum) ∧
      (∀ p ∈ cmPairs attr, (cmFinal attr p.1 p.2).isSome = true) ∧
      (∀ n m, attrAt a' n m = cmFinal attr n m) ∧
      (∀ n, (a'.lookup n).any Val.isDict = (attr.lookup n).any Val.isDict ∧ ((attr.lookup n).any Val.isDict = false → a'.lookup n = attr.lookup n)) := by
  rcases cmLoop_inv hc (cmPairs attr) attr [] ⟨by simp, by simp⟩ (by simp) (nodup_cmPairs attr hu)
    (fun p hp => (mem_cmPairs attr hu p.1 p.2).1 hp) with h | ⟨a', h1, h2, h3, h4⟩
  · exact Or.inl h
  · refine Or.inr ⟨a', h1, h2, ?_, h4⟩
    intro n m
    rw [h3]
    by_cases hm : (n, m) ∈ cmPairs attr
    · rw [if_pos (by simpa using hm)]
    · rw [if_neg (by simpa using hm)]
      have hnone : attrAt attr n m = none := by
        rw [mem_cmPairs attr hu] at hm
        simpa using hm
      rw [cmFinal_nosrc attr n m (by simp [hnone])]

theorem attrAt_at (attr : List (String × Val)) (ns name : String) : attrAt attr ns name = Val.at (.dict attr) [ns, name] := by
  unfold attrAt
  rw [at_dict_cons]
  cases attr.lookup ns with
  | none => rfl
  | some v =>
    cases v with
    | dict d => simp only [Option.bind_some, at_dict_cons]; cases d.lookup name <;> rfl
    | _ => rfl

theorem cmReq_source (d : List (String × Val)) :
    cmReq (.dict d) = match requestSource d with
      | some (.str s) => .src s (d.lookup "copy").isSome
      | some _ => .bad
      | none => .none := by
  have h : ((d.lookup "copy").filter (fun v => v.truthy)).or ((d.lookup "merge").filter (fun v => v.truthy)) = requestSource d := by
    unfold requestSource
    cases hc : d.lookup "copy" with
    | none => rfl
    | some c =>
      cases ht : c.truthy with
      | true => simp [Option.filter, ht]
      | false => simp [Option.filter, ht]
  unfold cmReq
  simp only [h]
  cases requestSource d with
  | none => rfl
  | some v => cases v <;> rfl

theorem noChainsM {attr : List (String × Val)} (h : NoChains attr) : NoChainsM attr := by
  intro ns name v s c hv hr w hw t e hw2
  have hd : ∀ {v s c}, cmReq v = .src s c → ∃ d, v = .dict d ∧ requestSource d = some (.str s) := by
    intro v s c h
    cases v with
    | dict d =>
      refine ⟨d, rfl, ?_⟩
      rw [cmReq_source] at h
      split at h
      · rename_i x hx; simp only [CmReq.src.injEq] at h; rw [hx, h.1]
      · simp at h
      · simp at h
    | _ => simp [cmReq] at h
  obtain ⟨d, rfl, h1⟩ := hd hr
  obtain ⟨d', rfl, h2⟩ := hd hw2
  have := h ns name d s d' (by rw [← attrAt_at]; exact hv) h1 (by rw [← attrAt_at]; exact hw)
  rw [this] at h2
  simp at h2

/-- **C101**: a definition copied from another namespace is the definition in that namespace, a merged definition is the source definition with the requesting definition on top of it
(without the request), and no other definition changes. -/
theorem C101_copied {attr attr' : List (String × Val)} {e : Nat} (hu : Val.UniqueKeys (.dict attr)) (hc : NoChains attr) (h : cmAll attr = some (attr', e))
    (ns name : String) :
    (∀ d s b, Val.at (.dict attr) [ns, name] = some (.dict d) → requestSource d = some (.str s) → attr.lookup s = some (.dict b) →
      (d.lookup "copy" ≠ none → Val.at (.dict attr') [ns, name] = some ((b.lookup name).getD (.dict []))) ∧
      (d.lookup "copy" = none → ∃ x, (b.lookup name).getD (.dict []) = .dict x ∧
        Val.at (.dict attr') [ns, name] = some (.dict (popKey (mergeDict x d) "merge")))) ∧
    ((∀ d, Val.at (.dict attr) [ns, name] = some (.dict d) → ∀ s b, requestSource d = some (.str s) → attr.lookup s ≠ some (.dict b)) →
      Val.at (.dict attr') [ns, name] = Val.at (.dict attr) [ns, name]) := by
  rcases cmAll_spec hu (noChainsM hc) with ⟨h1, _⟩ | ⟨a', h1, h2, h3, _⟩
  · rw [h1] at h; simp at h
  · rw [h1] at h
    simp only [Option.some.injEq, Prod.mk.injEq] at h
    obtain ⟨rfl, _⟩ := h
    rw [← attrAt_at, ← attrAt_at, h3]
    constructor
    · intro d s b hd hs hb
      have hreq : cmReq (.dict d) = .src s (d.lookup "copy").isSome := by rw [cmReq_source, hs]
      have hf : cmFinal attr ns name = cmValue (d.lookup "copy").isSome ((b.lookup name).getD (.dict [])) (.dict d) := by
        unfold cmFinal
        simp [hd, hreq, hb]
      have hsome := h2 (ns, name) ((mem_cmPairs attr hu ns name).2 (by rw [hd]; rfl))
      simp only at hsome
      rw [hf] at hsome ⊢
      constructor
      · intro hcp
        have : (d.lookup "copy").isSome = true := by
          cases hx : d.lookup "copy" with
          | none => exact absurd hx hcp
          | some _ => rfl
        rw [this]; rfl
      · intro hcp
        rw [hcp] at hsome ⊢
        cases hw : (b.lookup name).getD (.dict []) with
        | dict x => exact ⟨x, rfl, rfl⟩
        | _ => rw [hw] at hsome; simp [cmValue] at hsome
    · intro hno
      unfold cmFinal
      split
      · rename_i s c hs
        split
        · rename_i b hb
          exfalso
          cases hv : attrAt attr ns name with
          | none => simp [hv] at hs
          | some v =>
            rw [hv] at hs hno
            simp only [Option.map_some, Option.some.injEq] at hs
            cases v with
            | dict d =>
              rw [cmReq_source] at hs
              split at hs
              · rename_i x hx
                simp only [CmReq.src.injEq] at hs
                exact hno d rfl x b hx (by rw [hs.1]; exact hb)
              · simp at hs
              · simp at hs
            | _ => simp [cmReq] at hs
        · rfl
      · rfl

/-- **C101**: attribute definitions are processed without errors exactly when every request names an existing namespace. -/
theorem C101_copy_errors {attr attr' : List (String × Val)} {e : Nat} (hu : Val.UniqueKeys (.dict attr)) (hc : NoChains attr) (h : cmAll attr = some (attr', e)) :
    e = 0 ↔ ∀ ns name d x, Val.at (.dict attr) [ns, name] = some (.dict d) → requestSource d = some x →
      ∃ s b, x = .str s ∧ attr.lookup s = some (.dict b) := by
  rcases cmAll_spec hu (noChainsM hc) with ⟨h1, _⟩ | ⟨a', h1, h2, h3, _⟩
  · rw [h1] at h; simp at h
  · rw [h1] at h
    simp only [Option.some.injEq, Prod.mk.injEq] at h
    obtain ⟨_, rfl⟩ := h
    have hz : ((cmPairs attr).map (fun p => cmBad attr p.1 p.2)).sum = 0 ↔ ∀ p ∈ cmPairs attr, cmBad attr p.1 p.2 = 0 := by
      generalize cmPairs attr = ps
      clear * -
      induction ps with
      | nil => simp
      | cons x r ih => rw [List.map_cons, List.sum_cons, Nat.add_eq_zero_iff, ih]; simp
    rw [hz]
    constructor
    · intro ha ns name d x hd hx
      rw [← attrAt_at] at hd
      have := ha (ns, name) ((mem_cmPairs attr hu ns name).2 (by rw [hd]; rfl))
      simp only [cmBad, hd, Option.map_some, cmReq_source, hx] at this
      cases x with
      | str s =>
        simp only at this
        split at this
        · rename_i hs
          obtain ⟨b, hb⟩ := any_isDict.1 hs
          exact ⟨s, b, rfl, hb⟩
        · simp at this
      | _ => simp at this
    · rintro ha ⟨ns, name⟩ hp
      rw [mem_cmPairs attr hu] at hp
      obtain ⟨v, hv⟩ := Option.isSome_iff_exists.1 hp
      simp only [cmBad, hv, Option.map_some]
      cases v with
      | dict d =>
        rw [cmReq_source]
        cases hx : requestSource d with
        | none => rfl
        | some x =>
          obtain ⟨s, b, rfl, hb⟩ := ha ns name d x (by rw [← attrAt_at]; exact hv) hx
          simp [hb, Val.isDict]
      | _ => rfl

/-- **C101**: attribute definitions are processed unless a definition is merged with a source that is not a dictionary. -/
theorem C101_copy_total {attr : List (String × Val)} (hu : Val.UniqueKeys (.dict attr)) (hc : NoChains attr) :
    cmAll attr = none ↔ ∃ ns name d s b w, Val.at (.dict attr) [ns, name] = some (.dict d) ∧ requestSource d = some (.str s) ∧ d.lookup "copy" = none ∧
      attr.lookup s = some (.dict b) ∧ b.lookup name = some w ∧ w.isDict = false := by
  have key : ∀ ns name, (attrAt attr ns name).isSome = true → (cmFinal attr ns name = none ↔ ∃ d s b w, Val.at (.dict attr) [ns, name] = some (.dict d) ∧
      requestSource d = some (.str s) ∧ d.lookup "copy" = none ∧ attr.lookup s = some (.dict b) ∧ b.lookup name = some w ∧ w.isDict = false) := by
    intro ns name hs
    obtain ⟨v, hv⟩ := Option.isSome_iff_exists.1 hs
    rw [← attrAt_at]
    constructor
    · intro hf
      unfold cmFinal at hf
      rw [hv] at hf ⊢
      simp only [Option.map_some] at hf
      split at hf
      · rename_i s c hr
        simp only [Option.some.injEq] at hr
        split at hf
        · rename_i b hb
          cases v with
          | dict d =>
            rw [cmReq_source] at hr
            split at hr
            · rename_i x hx
              simp only [CmReq.src.injEq] at hr
              obtain ⟨rfl, rfl⟩ := hr
              simp only [Option.getD_some] at hf
              cases hcp : d.lookup "copy" with
              | some _ => rw [hcp] at hf; simp [cmValue] at hf
              | none =>
                rw [hcp] at hf
                cases hbn : b.lookup name with
                | none => rw [hbn] at hf; simp [cmValue] at hf
                | some w =>
                  refine ⟨d, x, b, w, rfl, hx, hcp, hb, hbn, ?_⟩
                  rw [hbn] at hf
                  cases w with
                  | dict y => simp [cmValue] at hf
                  | _ => rfl
            · simp at hr
            · simp at hr
          | _ => simp [cmReq] at hr
        · simp at hf
      · simp at hf
    · rintro ⟨d, s, b, w, hd, hx, hcp, hb, hbn, hw⟩
      have hreq : cmReq (.dict d) = .src s false := by rw [cmReq_source, hx, hcp]; rfl
      unfold cmFinal
      simp only [hd, Option.map_some, hreq, hb, hbn, Option.getD_some]
      cases w with
      | dict y => simp [Val.isDict] at hw
      | _ => rfl
  rcases cmAll_spec hu (noChainsM hc) with ⟨h1, ⟨ns, name⟩, hp, h2⟩ | ⟨a', h1, h2, _⟩
  · refine iff_of_true h1 ?_
    exact ⟨ns, name, (key ns name ((mem_cmPairs attr hu ns name).1 hp)).1 h2⟩
  · refine iff_of_false (by rw [h1]; simp) ?_
    rintro ⟨ns, name, hx⟩
    have hs : (attrAt attr ns name).isSome = true := by
      obtain ⟨d, s, b, w, hd, _⟩ := hx
      rw [attrAt_at, hd]; rfl
    have h3 := (key ns name hs).2 hx
    have h4 := h2 (ns, name) ((mem_cmPairs attr hu ns name).2 hs)
    simp only at h4
    rw [h3] at h4
    simp at h4

example : cmAll [("global", .dict [("x", .str "int"), ("y", .dict [("type", .str "int"), ("min", .int 1)])]),
      ("node", .dict [("x", .dict [("copy", .str "global")]), ("y", .dict [("merge", .str "global"), ("min", .int 2)]), ("z", .dict [("copy", .str "lnk")])])] =
    some ([("global", .dict [("x", .str "int"), ("y", .dict [("type", .str "int"), ("min", .int 1)])]),
      ("node", .dict [("x", .str "int"), ("y", .dict [("type", .str "int"), ("min", .int 2)]), ("z", .dict [("copy", .str "lnk")])])], 1) := by
  simp [cmAll, cmPairs, cmLoop, cmStep, attrAt, cmReq, Option.filter, Val.truthy, cmValue, attrSet, setKey, popKey, mergeDict, mergePair, mergeVal, List.lookup]

/-- **C101** (defect): the result of chained copy requests depends on the order of namespaces. -/
theorem C101_chain_order :
    (∃ a', cmAll [("node", .dict [("x", .dict [("copy", .str "link")])]), ("link", .dict [("x", .dict [("copy", .str "global")])]), ("global", .dict [("x", .str "int")])] = some (a', 0) ∧
      Val.at (.dict a') ["node", "x"] = some (.dict [("copy", .str "global")])) ∧
    (∃ a', cmAll [("link", .dict [("x", .dict [("copy", .str "global")])]), ("node", .dict [("x", .dict [("copy", .str "link")])]), ("global", .dict [("x", .str "int")])] = some (a', 0) ∧
      Val.at (.dict a') ["node", "x"] = some (.str "int")) := by
  constructor <;>
  refine ⟨_, by simp [cmAll, cmPairs, cmLoop, cmStep, attrAt, cmReq, Option.filter, Val.truthy, cmValue, attrSet, setKey, List.lookup]; rfl, ?_⟩ <;>
  simp [Val.at, List.lookup]

/-- **C101** (defect): copying a definition that does not exist in the source namespace is not an error; the attribute gets an empty definition. -/
theorem C101_missing_definition :
    cmAll [("global", .dict [("x", .str "int")]), ("node", .dict [("y", .dict [("copy", .str "global")])])] =
      some ([("global", .dict [("x", .str "int")]), ("node", .dict [("y", .dict [])])], 0) := by
  simp [cmAll, cmPairs, cmLoop, cmStep, attrAt, cmReq, Option.filter, Val.truthy, cmValue, attrSet, setKey, List.lookup]

end Netlab
