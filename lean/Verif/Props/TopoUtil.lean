import Verif.Spec.TopoUtil
import Verif.Props.EvpnNode
import Verif.Props.ModHooks

namespace Netlab

open Spec

/-! ### Identifiers -/

theorem tuIdChar_iff (c : Char) : tuIdChar c = true ↔ IdentifierChar c := by
  unfold tuIdChar tuDigit IdentifierChar Char.isAlphanum Char.isAlpha Char.isDigit Char.isUpper Char.isLower
  simp only [Bool.or_eq_true, Bool.and_eq_true, decide_eq_true_eq, beq_iff_eq, Char.toNat, UInt32.le_iff_toNat_le, ge_iff_le]
  have h : ∀ a b c d : Prop, ((a ∨ b) ∨ c) ∨ d ↔ ((b ∨ a) ∨ c) ∨ d := by intros; simp only [or_comm, or_left_comm]
  exact h _ _ _ _

theorem tuDigit_iff (c : Char) : tuDigit c = true ↔ c.isDigit = true := by
  unfold tuDigit Char.isDigit
  simp only [Bool.and_eq_true, decide_eq_true_eq, Char.toNat, UInt32.le_iff_toNat_le, ge_iff_le]

theorem mem_of_mem_dropWhile {α : Type} (f : α → Bool) (l : List α) (x : α) (h : x ∈ l.dropWhile f) : x ∈ l :=
  (List.dropWhile_sublist f).subset h

theorem tuMakeId_mem (txt : List Char) (c : Char) (h : c ∈ tuMakeId txt) : c ∈ txt.map (fun c => if tuIdChar c then c else '_') := by
  unfold tuMakeId at h
  simp only at h
  split at h
  · split at h
    · exact mem_of_mem_dropWhile _ _ _ h
    · exact mem_of_mem_dropWhile _ _ _ (mem_of_mem_dropWhile _ _ _ h)
  · exact mem_of_mem_dropWhile _ _ _ h

/-- **C113**: identifiers contain only letters, digits and underscores. -/
theorem C113_id_chars (txt : List Char) : ∀ c ∈ tuMakeId txt, IdentifierChar c := by
  intro c hc
  obtain ⟨x, _, rfl⟩ := List.mem_map.1 (tuMakeId_mem txt c hc)
  by_cases h : tuIdChar x = true
  · rw [if_pos h]
    exact (tuIdChar_iff x).1 h
  · rw [if_neg h]
    exact Or.inr rfl

/-- **C113**: an identifier made from a text that starts with a letter or an underscore is that text with other characters replaced by underscores; a text that is
already an identifier does not change. -/
theorem C113_id_text (c : Char) (r : List Char) (hc : IdentifierChar c) (hd : c.isDigit = false) :
    tuMakeId (c :: r) = c :: r.map (fun x => if x.isAlphanum = true ∨ x = '_' then x else '_') ∧
      ((∀ x ∈ r, IdentifierChar x) → tuMakeId (c :: r) = c :: r) := by
  have hm : (c :: r).map (fun c => if tuIdChar c then c else '_') = c :: r.map (fun x => if x.isAlphanum = true ∨ x = '_' then x else '_') := by
    rw [List.map_cons, if_pos ((tuIdChar_iff c).2 hc)]
    congr 1
    apply List.map_congr_left
    intro x _
    by_cases h : tuIdChar x = true
    · rw [if_pos h]; exact (if_pos ((tuIdChar_iff x).1 h)).symm
    · rw [if_neg h]; exact (if_neg (fun e => h ((tuIdChar_iff x).2 e))).symm
  have hdig : tuDigit c = false := by
    rw [Bool.eq_false_iff]
    intro h
    rw [(tuDigit_iff c).1 h] at hd
    cases hd
  have h1 : tuMakeId (c :: r) = c :: r.map (fun x => if x.isAlphanum = true ∨ x = '_' then x else '_') := by
    unfold tuMakeId
    rw [hm]
    simp only [List.dropWhile_cons, hdig, Bool.false_eq_true, if_false, List.head?_cons]
    rw [if_neg (fun h => h.2 h.1)]
  refine ⟨h1, fun h => ?_⟩
  rw [h1]
  congr 1
  have : r.map (fun x => if x.isAlphanum = true ∨ x = '_' then x else '_') = r.map id := by
    apply List.map_congr_left
    intro x hx
    exact if_pos (h x hx)
  rw [this, List.map_id]

/-- **C113**: the name of a topology that gets its name from a directory has at most twelve characters: letters, digits and underscores. -/
theorem C113_topology_name (dir : List Char) : (tuTopoName dir).length ≤ 12 ∧ ∀ c ∈ tuTopoName dir, IdentifierChar c := by
  refine ⟨?_, C113_id_chars _⟩
  have hlen : ∀ txt : List Char, (tuMakeId txt).length ≤ txt.length := by
    intro txt
    have h1 : ((txt.map (fun c => if tuIdChar c then c else '_')).dropWhile tuDigit).length ≤ txt.length := by
      have := (List.dropWhile_sublist tuDigit (l := txt.map (fun c => if tuIdChar c then c else '_'))).length_le
      rwa [List.length_map] at this
    unfold tuMakeId
    simp only
    split
    · split
      · exact h1
      · exact Nat.le_trans (List.dropWhile_sublist _).length_le h1
    · exact h1
  unfold tuTopoName
  refine Nat.le_trans (hlen _) ?_
  rw [List.length_map, List.length_take]
  omega

example : tuTopoName "BGP 101.test-lab-with-a-long-name".toList = "BGP_101_test".toList ∧ tuMakeId "_x".toList = "_x".toList ∧
    tuMakeId "9-lab".toList = "lab".toList := by decide +kernel

/-- **C113** (defect): a topology in a directory with a name that has only digits has an empty name. -/
theorem C113_name_empty (dir : List Char) (h : ∀ c ∈ dir, c.isDigit = true) : tuTopoName dir = [] := by
  have hd : ∀ c : Char, c.isDigit = true → tuDigit c = true ∧ tuIdChar c = true ∧ c ≠ ' ' ∧ c ≠ '.' := by
    intro c hc
    refine ⟨(tuDigit_iff c).2 hc, (tuIdChar_iff c).2 (Or.inl (by simp [Char.isAlphanum, hc])), ?_, ?_⟩
    · rintro rfl; cases hc
    · rintro rfl; cases hc
  unfold tuTopoName
  have h1 : (dir.take 12).map (fun c => if c = ' ' then '_' else if c = '.' then '_' else c) = dir.take 12 := by
    conv => rhs; rw [← List.map_id (dir.take 12)]
    apply List.map_congr_left
    intro c hc
    have := hd c (h c (List.mem_of_mem_take hc))
    rw [if_neg this.2.2.1, if_neg this.2.2.2]
    rfl
  rw [h1]
  have h2 : (dir.take 12).map (fun c => if tuIdChar c then c else '_') = dir.take 12 := by
    conv => rhs; rw [← List.map_id (dir.take 12)]
    apply List.map_congr_left
    intro c hc
    rw [if_pos (hd c (h c (List.mem_of_mem_take hc))).2.1]
    rfl
  have h3 : (dir.take 12).dropWhile tuDigit = [] := by
    have hall : ∀ l : List Char, (∀ c ∈ l, tuDigit c = true) → l.dropWhile tuDigit = [] := by
      intro l
      induction l with
      | nil => exact fun _ => rfl
      | cons a b ih =>
        intro hl
        rw [List.dropWhile_cons, if_pos (hl a List.mem_cons_self)]
        exact ih (fun c hc => hl c (List.mem_cons_of_mem _ hc))
    exact hall _ (fun c hc => (hd c (h c (List.mem_of_mem_take hc))).1)
  unfold tuMakeId
  rw [h2, h3]
  rfl

/-- **C113** (defect): an identifier can start with a digit. -/
theorem C113_id_digit : tuMakeId "1_2".toList = "2".toList := by decide +kernel

/-! ### Prefixes -/

theorem tuItems_spec (o : TuOracle N) (d : List (String × Val)) :
    (∀ l, tuItems o d = some l ↔ List.Forall₂ (ItemParsed o) d l) ∧ (tuItems o d = none ↔ ∃ x ∈ d, BadItem o x) := by
  induction d with
  | nil =>
    refine ⟨fun l => ?_, by simp [tuItems]⟩
    simp only [tuItems, Option.some.injEq]
    constructor
    · rintro rfl; exact .nil
    · intro h; cases h; rfl
  | cons x r ih =>
    obtain ⟨af, v⟩ := x
    -- the result of parsing the first item
    have hstep : ∃ y : Option (TuPfx N), tuItems o ((af, v) :: r) = (match y with | none => none | some p => (tuItems o r).map ((af, p) :: ·)) ∧
        (∀ p, y = some p ↔ ItemParsed o (af, v) (af, p)) ∧ (y = none ↔ BadItem o (af, v)) := by
      by_cases haf : af ≠ "ipv4" ∧ af ≠ "ipv6"
      · refine ⟨some (.raw v), by simp only [tuItems]; rw [if_pos haf], fun p => ?_, ?_⟩
        · unfold ItemParsed
          simp only [Option.some.injEq, true_and, haf.1, haf.2, or_self, false_and, false_or, ne_eq, not_false_eq_true]
          exact eq_comm
        · unfold BadItem
          simp [haf.1, haf.2]
      · have haf' : af = "ipv4" ∨ af = "ipv6" := by
          by_cases h4 : af = "ipv4"
          · exact Or.inl h4
          · exact Or.inr (Classical.not_not.1 (fun h => haf ⟨h4, h⟩))
        have hno : ¬ (af ≠ "ipv4" ∧ af ≠ "ipv6" ∧ True) := fun h => haf ⟨h.1, h.2.1⟩
        have hparse : ∀ p : TuPfx N, ItemParsed o (af, v) (af, p) ↔
            ((∃ b, v = .bool b ∧ p = .raw (.bool b)) ∨ ((∀ b, v ≠ .bool b) ∧ ∃ n, o.net v = some n ∧ p = .net n)) := by
          intro p
          unfold ItemParsed
          simp only [true_and]
          constructor
          · rintro (⟨_, h⟩ | ⟨h1, h2, _⟩)
            · exact h
            · exact absurd ⟨h1, h2⟩ haf
          · exact fun h => Or.inl ⟨haf', h⟩
        have hbad : BadItem o (af, v) ↔ (∀ b, v ≠ .bool b) ∧ o.net v = none := by
          unfold BadItem
          simp only
          exact ⟨fun h => h.2, fun h => ⟨haf', h⟩⟩
        by_cases hb : ∃ b, v = .bool b
        · obtain ⟨b, rfl⟩ := hb
          refine ⟨some (.raw (.bool b)), by simp only [tuItems]; rw [if_neg haf], fun p => ?_, ?_⟩
          · rw [hparse]
            simp [eq_comm]
          · rw [hbad]
            simp
        · have hb' : ∀ b, v ≠ .bool b := fun b h => hb ⟨b, h⟩
          refine ⟨(o.net v).map .net, ?_, fun p => ?_, ?_⟩
          · simp only [tuItems]
            rw [if_neg haf]
            cases v with
            | bool b => exact absurd rfl (hb' b)
            | null => cases o.net _ <;> rfl
            | int _ => cases o.net _ <;> rfl
            | str _ => cases o.net _ <;> rfl
            | list _ => cases o.net _ <;> rfl
            | dict _ => cases o.net _ <;> rfl
          · rw [hparse]
            constructor
            · intro h
              right
              refine ⟨hb', ?_⟩
              cases hn : o.net v with
              | none => rw [hn] at h; cases h
              | some n => rw [hn] at h; exact ⟨n, rfl, (Option.some.inj h).symm⟩
            · rintro (⟨b, h, _⟩ | ⟨_, n, h, rfl⟩)
              · exact absurd h (hb' b)
              · rw [h]; rfl
          · rw [hbad]
            simp only [Option.map_eq_none_iff]
            exact ⟨fun h => ⟨hb', h⟩, fun h => h.2⟩
    obtain ⟨y, hy1, hy2, hy3⟩ := hstep
    rw [hy1]
    cases y with
    | none =>
      have hbad := hy3.1 rfl
      refine ⟨fun l => ?_, ?_⟩
      · simp only [reduceCtorEq, false_iff]
        intro h
        cases h with
        | @cons _ z _ t h1 _ =>
          obtain ⟨k, p⟩ := z
          have hk : k = af := h1.1
          subst hk
          exact absurd ((hy2 p).2 h1) (by simp)
      · simp only [true_iff]
        exact ⟨_, List.mem_cons_self, hbad⟩
    | some p =>
      have hp := (hy2 p).1 rfl
      refine ⟨fun l => ?_, ?_⟩
      · constructor
        · intro h
          simp only [Option.map_eq_some_iff] at h
          obtain ⟨t, ht, rfl⟩ := h
          exact .cons hp ((ih.1 t).1 ht)
        · intro h
          cases h with
          | @cons _ z _ t h1 h2 =>
            obtain ⟨k, q⟩ := z
            have hk : k = af := h1.1
            subst hk
            have := (hy2 q).2 h1
            cases this
            simp only
            rw [(ih.1 t).2 h2]
            rfl
      · simp only [Option.map_eq_none_iff, ih.2, List.mem_cons, exists_eq_or_imp]
        constructor
        · exact Or.inr
        · rintro (h | h)
          · exact absurd (hy3.2 h) (by simp)
          · exact h

/-- **C113**: a dictionary with prefixes is parsed item by item, and it's an error, resulting in an empty prefix, when one of them is not a prefix. -/
theorem C113_prefix_dict (o : TuOracle N) (x : String × Val) (d : List (String × Val)) (hip : "ip" ∉ (x :: d).map (·.1)) :
    (∀ l, tuParsePrefix o (.dict (x :: d)) = some (l, 0) ↔ List.Forall₂ (ItemParsed o) (x :: d) l) ∧
      (tuParsePrefix o (.dict (x :: d)) = some ([], 1) ↔ ∃ y ∈ x :: d, BadItem o y) := by
  have hl : (x :: d).lookup "ip" = none := lookup_eq_none_iff.2 hip
  have he : tuParsePrefix o (.dict (x :: d)) = some (tuOrError (tuItems o (x :: d))) := by
    have h1 : tuLegacy (x :: d) = some (x :: d) := by
      unfold tuLegacy
      rw [hl]
    have h2 : tuParsePrefix o (.dict (x :: d)) = some (tuOrError ((tuLegacy (x :: d)).bind (tuItems o))) := rfl
    rw [h2, h1]
    rfl
  rw [he]
  have hs := tuItems_spec o (x :: d)
  refine ⟨fun l => ?_, ?_⟩
  · rw [← hs.1]
    cases tuItems o (x :: d) with
    | none => simp [tuOrError]
    | some t => simp [tuOrError]
  · rw [← hs.2]
    cases tuItems o (x :: d) with
    | none => simp [tuOrError]
    | some t => simp [tuOrError]

/-- **C113**: the legacy address family `ip` is another name for `ipv4`; they can't be used together. -/
theorem C113_prefix_legacy (o : TuOracle N) (d : List (String × Val)) (v : Val) (h : d.lookup "ip" = some v) :
    ("ipv4" ∈ d.map (·.1) → tuParsePrefix o (.dict d) = some ([], 1)) ∧
    ("ipv4" ∉ d.map (·.1) → tuParsePrefix o (.dict d) = tuParsePrefix o (.dict (d.filter (fun x => x.1 != "ip") ++ [("ipv4", v)]))) := by
  have hne : tuFalsy (.dict d) = false := by
    cases d with
    | nil => cases h
    | cons => rfl
  have hne2 : tuFalsy (.dict (d.filter (fun x => x.1 != "ip") ++ [("ipv4", v)])) = false := by
    unfold tuFalsy
    simp
  have hs : ∀ d : List (String × Val), tuFalsy (.dict d) = false → tuParsePrefix o (.dict d) = some (tuOrError ((tuLegacy d).bind (tuItems o))) := by
    intro d hd
    unfold tuParsePrefix
    rw [hd]
    rfl
  rw [hs _ hne, hs _ hne2]
  have hnone : (d.filter (fun x => x.1 != "ip") ++ [("ipv4", v)]).lookup "ip" = none := by
    rw [lookup_eq_none_iff]
    simp
  constructor
  · intro h4
    have : (d.lookup "ipv4").isSome = true := by
      rw [Option.isSome_iff_ne_none, ne_eq, lookup_eq_none_iff]
      exact fun hn => hn h4
    unfold tuLegacy
    rw [h]
    simp only [this, if_true]
    rfl
  · intro h4
    have h4' : d.lookup "ipv4" = none := lookup_eq_none_iff.2 h4
    have e1 : tuLegacy d = some (d.filter (fun x => x.1 != "ip") ++ [("ipv4", v)]) := by
      unfold tuLegacy
      rw [h]
      simp only [h4', Option.isSome_none, Bool.false_eq_true, if_false]
      rw [List.filter_append]
      rfl
    have e2 : tuLegacy (d.filter (fun x => x.1 != "ip") ++ [("ipv4", v)]) = some (d.filter (fun x => x.1 != "ip") ++ [("ipv4", v)]) := by
      unfold tuLegacy
      rw [hnone]
    rw [e1, e2]

/-- **C113**: a text is the name of a prefix or an IPv4 prefix. -/
theorem C113_prefix_text (o : TuOracle N) (s : String) (hs : s ≠ "") :
    (∀ l, o.named s = some l → tuParsePrefix o (.str s) = some (l, 0)) ∧
    (∀ n, o.named s = none → o.net4 s = some n → tuParsePrefix o (.str s) = some ([("ipv4", .net n)], 0)) ∧
    (o.named s = none → o.net4 s = none → tuParsePrefix o (.str s) = some ([], 1)) := by
  have hf : tuFalsy (.str s) = false := by
    unfold tuFalsy
    simpa using hs
  unfold tuParsePrefix
  rw [hf]
  refine ⟨fun l h => ?_, fun n h1 h2 => ?_, fun h1 h2 => ?_⟩
  · simp only [Bool.false_eq_true, if_false, h]
  · simp only [Bool.false_eq_true, if_false, h1, h2, Option.map_some, tuOrError]
  · simp only [Bool.false_eq_true, if_false, h1, h2, Option.map_none, tuOrError]

/-- An oracle for examples: every text is a prefix -/
example : let o : TuOracle String := ⟨fun s => if s = "lan" then some [("ipv4", .net "10.0.0.0/24")] else none, fun s => if s = "x" then none else some s,
      fun v => match v with | .str s => if s = "x" then none else some s | _ => none⟩
    tuParsePrefix o (.dict [("ipv4", .str "10.0.0.0/24"), ("ipv6", .bool true)]) = some ([("ipv4", .net "10.0.0.0/24"), ("ipv6", .raw (.bool true))], 0) ∧
    tuParsePrefix o (.dict [("ipv4", .str "x")]) = some ([], 1) ∧ tuParsePrefix o (.str "x") = some ([], 1) ∧
    tuParsePrefix o (.dict [("ip", .str "10.0.0.0/24")]) = some ([("ipv4", .net "10.0.0.0/24")], 0) := by
  refine ⟨rfl, rfl, rfl, rfl⟩

/-! ### Data exported from groups -/

theorem tuSetObj_lookup (name : String) (v : TuObj) (t : List (String × Option TuObj)) (k : String) :
    (tuSetObj name v t).lookup k = if k = name then some (some v) else t.lookup k := by
  induction t with
  | nil =>
    unfold tuSetObj
    by_cases h : k = name
    · subst h; simp
    · rw [lookup_cons_ne _ _ h, if_neg h]
  | cons x r ih =>
    obtain ⟨a, b⟩ := x
    unfold tuSetObj
    by_cases hx : a = name
    · rw [if_pos hx]
      by_cases h : k = name
      · subst h; simp
      · rw [lookup_cons_ne _ _ h, if_neg h, lookup_cons_ne _ _ (by rw [hx]; exact h)]
    · rw [if_neg hx]
      by_cases h : k = a
      · subst h
        rw [lookup_cons_self, lookup_cons_self, if_neg hx]
      · rw [lookup_cons_ne _ _ h, lookup_cons_ne _ _ h, ih]

theorem tuCopyMissing_lookup (copy : List String) (glob obj : TuObj) (a : String) :
    (tuCopyMissing copy glob obj).lookup a = (glob.lookup a).or (if a ∈ copy then obj.lookup a else none) := by
  unfold tuCopyMissing
  induction copy generalizing glob with
  | nil => simp
  | cons c r ih =>
    rw [List.foldl_cons, ih]
    cases hv : obj.lookup c with
    | none =>
      simp only
      by_cases hac : a = c
      · subst hac
        simp [hv]
      · simp [hac]
    | some v =>
      simp only
      by_cases hg : (glob.lookup c).isSome = true
      · rw [if_pos hg]
        by_cases hac : a = c
        · subst hac
          obtain ⟨w, hw⟩ := Option.isSome_iff_exists.1 hg
          simp [hw]
        · simp [hac]
      · rw [if_neg hg]
        have hgn : glob.lookup c = none := by
          cases hgl : glob.lookup c with
          | none => rfl
          | some _ => rw [hgl] at hg; exact absurd rfl hg
        have hsn : (glob ++ [(c, v)]).lookup a = (glob.lookup a).or (if a = c then some v else none) := by
          rw [List.lookup_append]
          congr 1
          by_cases hac : a = c
          · subst hac; simp
          · rw [lookup_cons_ne _ _ hac, if_neg hac]; rfl
        rw [hsn]
        by_cases hac : a = c
        · subst hac
          simp [hgn, hv]
        · simp [hac]

/-- The objects are handled one by one. -/
theorem tuExport_items (uniq copy : List String) (groups : List (String × Option (List (String × Option TuObj)))) (t : List (String × Option TuObj)) :
    tuExport uniq copy groups t = (GroupObjects groups).foldl (tuExportObj (if uniq.isEmpty then copy else uniq) copy) (t, 0) := by
  unfold tuExport GroupObjects
  generalize (t, 0) = s
  induction groups generalizing s with
  | nil => rfl
  | cons g r ih =>
    rw [List.foldl_cons, ih]
    by_cases h : g.1.toList.head? = some '_'
    · rw [if_pos h, List.filter_cons_of_neg (by simp [h])]
    · rw [if_neg h, List.filter_cons_of_pos (by simpa using h), List.map_cons, List.flatten_cons, List.foldl_append]
      cases g.2 <;> rfl

/-- First value of an attribute in the list of objects -/
def tuFirst (name attr : String) : List (String × Option TuObj) → Option Val
  | [] => none
  | x :: r => (if x.1 = name then (x.2.getD []).lookup attr else none).or (tuFirst name attr r)

theorem tuFirst_iff (name attr : String) (items : List (String × Option TuObj)) (v : Val) :
    tuFirst name attr items = some v ↔ FirstDefined items name attr v := by
  unfold FirstDefined
  induction items with
  | nil => simp [tuFirst]
  | cons x r ih =>
    unfold tuFirst
    obtain ⟨k, o⟩ := x
    have skip : (∀ ob, (k, o) = (name, some ob) → ob.lookup attr = none) →
        ((∃ a obj b, r = a ++ (name, some obj) :: b ∧ obj.lookup attr = some v ∧ ∀ x ∈ a, ∀ o, x = (name, some o) → o.lookup attr = none) ↔
        (∃ a obj b, (k, o) :: r = a ++ (name, some obj) :: b ∧ obj.lookup attr = some v ∧ ∀ x ∈ a, ∀ o, x = (name, some o) → o.lookup attr = none)) := by
      intro hk
      constructor
      · rintro ⟨a, obj, b, rfl, h1, h2⟩
        refine ⟨(k, o) :: a, obj, b, rfl, h1, ?_⟩
        intro x hx ob e
        rcases List.mem_cons.1 hx with rfl | hx
        · exact hk ob e
        · exact h2 x hx ob e
      · rintro ⟨a, obj, b, he, h1, h2⟩
        cases a with
        | nil =>
          simp only [List.nil_append, List.cons.injEq] at he
          rw [hk obj he.1] at h1
          cases h1
        | cons y a =>
          simp only [List.cons_append, List.cons.injEq] at he
          exact ⟨a, obj, b, he.2, h1, fun x hx => h2 x (List.mem_cons_of_mem _ hx)⟩
    have take : ∀ ob w, (k, o) = (name, some ob) → ob.lookup attr = some w →
        (w = v ↔ ∃ a obj b, (k, o) :: r = a ++ (name, some obj) :: b ∧ obj.lookup attr = some v ∧ ∀ x ∈ a, ∀ o, x = (name, some o) → o.lookup attr = none) := by
      intro ob w e hw
      constructor
      · rintro rfl
        exact ⟨[], ob, r, by rw [e]; rfl, hw, fun _ h => (nomatch h)⟩
      · rintro ⟨a, obj, b, he, h1, h2⟩
        cases a with
        | nil =>
          simp only [List.nil_append, List.cons.injEq] at he
          rw [e] at he
          simp only [Prod.mk.injEq, Option.some.injEq, true_and] at he
          rw [← he.1, hw] at h1
          exact Option.some.inj h1
        | cons y a =>
          simp only [List.cons_append, List.cons.injEq] at he
          have := h2 y List.mem_cons_self ob (he.1 ▸ e)
          rw [hw] at this
          cases this
    by_cases hk : k = name
    · subst hk
      rw [if_pos rfl]
      cases o with
      | none =>
        simp only [Option.getD_none, List.lookup_nil, Option.none_or]
        rw [ih]
        exact skip (fun ob e => by simp at e)
      | some ob =>
        simp only [Option.getD_some]
        cases hl : ob.lookup attr with
        | none =>
          rw [Option.none_or, ih]
          exact skip (fun ob' e => by simp at e; rw [← e]; exact hl)
        | some w =>
          rw [Option.some_or, Option.some.injEq]
          exact take ob w rfl hl
    · rw [if_neg hk, Option.none_or, ih]
      exact skip (fun ob e => absurd (congrArg Prod.fst e) hk)

theorem tuGetObj_step (uniq copy : List String) (s : List (String × Option TuObj) × Nat) (x : String × Option TuObj) (name attr : String) :
    (tuGetObj name (tuExportObj uniq copy s x).1).lookup attr =
      ((tuGetObj name s.1).lookup attr).or (if attr ∈ copy then (if x.1 = name then (x.2.getD []).lookup attr else none) else none) := by
  unfold tuExportObj
  simp only
  by_cases h : name = x.1
  · subst h
    have : tuGetObj x.1 (tuSetObj x.1 (tuCopyMissing copy (tuGetObj x.1 s.1) (x.2.getD [])) s.1) = tuCopyMissing copy (tuGetObj x.1 s.1) (x.2.getD []) := by
      conv => lhs; unfold tuGetObj
      rw [tuSetObj_lookup, if_pos rfl]
      rfl
    rw [this, tuCopyMissing_lookup, if_pos rfl]
  · have : tuGetObj name (tuSetObj x.1 (tuCopyMissing copy (tuGetObj x.1 s.1) (x.2.getD [])) s.1) = tuGetObj name s.1 := by
      unfold tuGetObj
      rw [tuSetObj_lookup, if_neg h]
    have h' : ¬ x.1 = name := fun e => h e.symm
    rw [this]
    simp [h']

theorem tuExport_lookup (uniq copy : List String) (items : List (String × Option TuObj)) (s : List (String × Option TuObj) × Nat) (name attr : String) :
    (tuGetObj name (items.foldl (tuExportObj uniq copy) s).1).lookup attr =
      ((tuGetObj name s.1).lookup attr).or (if attr ∈ copy then tuFirst name attr items else none) := by
  induction items generalizing s with
  | nil => simp [tuFirst]
  | cons x r ih =>
    rw [List.foldl_cons, ih, tuGetObj_step]
    by_cases hc : attr ∈ copy
    · simp only [hc, if_true, tuFirst, Option.or_assoc]
    · simp [hc]

theorem attrValue_iff (t : List (String × Option TuObj)) (name attr : String) (v : Val) :
    (tuGetObj name t).lookup attr = some v ↔ AttrValue t name attr v := by
  unfold tuGetObj AttrValue
  cases t.lookup name with
  | none => simp
  | some o => cases o <;> simp

/-- **C113**: after the export, an attribute of a VLAN or VRF has the value from the topology; when the topology has no value and the attribute can be copied, it has
the value from the first group that defines it. -/
theorem C113_export_value (uniq copy : List String) (groups : List (String × Option (List (String × Option TuObj)))) (t : List (String × Option TuObj))
    (name attr : String) (v : Val) :
    AttrValue (tuExport uniq copy groups t).1 name attr v ↔
      AttrValue t name attr v ∨ ((∀ w, ¬ AttrValue t name attr w) ∧ attr ∈ copy ∧ FirstDefined (GroupObjects groups) name attr v) := by
  rw [← attrValue_iff, tuExport_items, tuExport_lookup]
  have hn : (∀ w, ¬ AttrValue t name attr w) ↔ (tuGetObj name t).lookup attr = none := by
    constructor
    · intro h
      cases hl : (tuGetObj name t).lookup attr with
      | none => rfl
      | some w => exact absurd ((attrValue_iff _ _ _ _).1 hl) (h w)
    · intro h w hw
      rw [(attrValue_iff _ _ _ _).2 hw] at h
      cases h
  rw [hn, ← attrValue_iff, ← tuFirst_iff]
  cases (tuGetObj name t).lookup attr with
  | some w => simp
  | none =>
    by_cases hc : attr ∈ copy <;> simp [hc]

/-- **C113**: the VLANs or VRFs defined in the topology after the export are those that were there and those used in groups. -/
theorem C113_export_objects (uniq copy : List String) (groups : List (String × Option (List (String × Option TuObj)))) (t : List (String × Option TuObj))
    (name : String) :
    name ∈ (tuExport uniq copy groups t).1.map (·.1) ↔ name ∈ t.map (·.1) ∨ name ∈ (GroupObjects groups).map (·.1) := by
  rw [tuExport_items]
  generalize GroupObjects groups = items
  generalize (if uniq.isEmpty then copy else uniq) = u
  have hs : ∀ (s : List (String × Option TuObj) × Nat), name ∈ (items.foldl (tuExportObj u copy) s).1.map (·.1) ↔ name ∈ s.1.map (·.1) ∨ name ∈ items.map (·.1) := by
    induction items with
    | nil => simp
    | cons x r ih =>
      intro s
      rw [List.foldl_cons, ih, List.map_cons, List.mem_cons]
      have : name ∈ (tuExportObj u copy s x).1.map (·.1) ↔ name ∈ s.1.map (·.1) ∨ name = x.1 := by
        unfold tuExportObj
        simp only
        generalize tuCopyMissing copy (tuGetObj x.1 s.1) (x.2.getD []) = w
        generalize s.1 = l
        induction l with
        | nil => simp [tuSetObj]
        | cons y q ih =>
          unfold tuSetObj
          by_cases hy : y.1 = x.1
          · rw [if_pos hy]
            simp only [List.map_cons, List.mem_cons, hy]
            constructor
            · rintro (h | h)
              · exact Or.inr h
              · exact Or.inl (Or.inr h)
            · rintro ((h | h) | h)
              · exact Or.inl h
              · exact Or.inr h
              · exact Or.inl h
          · rw [if_neg hy]
            simp only [List.map_cons, List.mem_cons, ih, or_assoc]
      rw [this, or_assoc]
  exact hs (t, 0)

theorem tuConflicts_zero (uniq : List String) (glob obj : TuObj) : tuConflicts uniq glob obj = 0 ↔
    ∀ a ∈ uniq, ∀ x y, glob.lookup a = some x → obj.lookup a = some y → x = y := by
  unfold tuConflicts
  rw [List.length_eq_zero_iff, List.filter_eq_nil_iff]
  refine forall_congr' fun a => forall_congr' fun _ => ?_
  cases glob.lookup a with
  | none => simp
  | some x =>
    cases obj.lookup a with
    | none => simp
    | some y => simp

/-- **C113**: the export reports no errors exactly when every group that defines a copied attribute uses the final value of the attribute. -/
theorem C113_export_errors (copy : List String) (groups : List (String × Option (List (String × Option TuObj)))) (t : List (String × Option TuObj)) :
    (tuExport [] copy groups t).2 = 0 ↔
      ∀ name obj, (name, some obj) ∈ GroupObjects groups → ∀ attr ∈ copy, ∀ v, obj.lookup attr = some v →
        AttrValue (tuExport [] copy groups t).1 name attr v := by
  simp only [tuExport_items, List.isEmpty_nil, if_true]
  generalize GroupObjects groups = items
  have key : ∀ (items : List (String × Option TuObj)) (s : List (String × Option TuObj) × Nat), (items.foldl (tuExportObj copy copy) s).2 = 0 ↔
      s.2 = 0 ∧ ∀ name obj, (name, some obj) ∈ items → ∀ attr ∈ copy, ∀ v, obj.lookup attr = some v →
        AttrValue (items.foldl (tuExportObj copy copy) s).1 name attr v := by
    intro items
    induction items with
    | nil => simp
    | cons x r ih =>
      intro s
      rw [List.foldl_cons, ih]
      have h0 : (tuExportObj copy copy s x).2 = 0 ↔ s.2 = 0 ∧ tuConflicts copy (tuGetObj x.1 s.1) (x.2.getD []) = 0 := by
        unfold tuExportObj
        simp only
        omega
      rw [h0, tuConflicts_zero, and_assoc]
      refine and_congr_right fun _ => ?_
      simp only [List.mem_cons]
      have hx : (∀ a ∈ copy, ∀ p q, (tuGetObj x.1 s.1).lookup a = some p → (x.2.getD []).lookup a = some q → p = q) ↔
          ∀ name obj, (name, some obj) = x → ∀ attr ∈ copy, ∀ v, obj.lookup attr = some v →
            AttrValue (r.foldl (tuExportObj copy copy) (tuExportObj copy copy s x)).1 name attr v := by
        have hval : ∀ a ∈ copy, ∀ q, (x.2.getD []).lookup a = some q →
            (AttrValue (r.foldl (tuExportObj copy copy) (tuExportObj copy copy s x)).1 x.1 a q ↔ ∀ p, (tuGetObj x.1 s.1).lookup a = some p → p = q) := by
          intro a ha q hq
          rw [← attrValue_iff, tuExport_lookup, tuGetObj_step, if_pos ha, if_pos rfl, if_pos ha, hq]
          cases (tuGetObj x.1 s.1).lookup a <;> simp
        constructor
        · rintro h name obj rfl attr ha v hv
          exact (hval attr ha v hv).2 (fun p hp => h attr ha p v hp hv)
        · intro h a ha p q hp hq
          obtain ⟨k, o⟩ := x
          cases o with
          | none => cases hq
          | some ob => exact (hval a ha q hq).1 (h k ob rfl a ha q hq) p hp
      rw [hx]
      constructor
      · rintro ⟨h1, h2⟩ name obj (h | h)
        · exact h1 name obj h
        · exact h2 name obj h
      · intro h
        exact ⟨fun name obj e => h name obj (Or.inl e), fun name obj e => h name obj (Or.inr e)⟩
  rw [key items (t, 0)]
  simp

example : let g := [("_auto_create", none), ("g1", some [("red", some [("id", Val.int 1000)]), ("blue", none)]), ("g2", some [("red", some [("id", .int 1001), ("vni", .int 5)])])]
    tuExport [] ["id", "vni"] g [("green", none)] =
      ([("green", none), ("red", some [("id", .int 1000), ("vni", .int 5)]), ("blue", some [])], 1) := by
  decide +kernel

/-! ### Counts of nodes on a link -/

theorem tuCount_spec (nodes : List TuNode) : tuCount nodes = (nodes.countP (·.host), nodes.countP (fun n => !n.host || n.daemon)) := by
  unfold tuCount
  have key : ∀ s : Nat × Nat, nodes.foldl (fun s n => if n.host then (s.1 + 1, if n.daemon then s.2 + 1 else s.2) else (s.1, s.2 + 1)) s =
      (s.1 + nodes.countP (·.host), s.2 + nodes.countP (fun n => !n.host || n.daemon)) := by
    induction nodes with
    | nil => simp
    | cons n r ih =>
      intro s
      rw [List.foldl_cons, ih, List.countP_cons, List.countP_cons]
      cases hh : n.host <;> cases hd : n.daemon <;> simp <;> omega
  rw [key]
  simp

/-- **C113**: a link without counts gets the number of nodes, the number of hosts and the number of routers (nodes that are not hosts, and daemons); zero counts are
not stored.  The counts are set only once. -/
theorem C113_counts (link : List (String × Int)) (nodes : List TuNode) (h : ∀ k ∈ ["node_count", "host_count", "router_count"], k ∉ link.map (·.1)) :
    (tuCountLink link nodes).lookup "node_count" = some (nodes.length : Int) ∧
    (tuCountLink link nodes).lookup "host_count" = (if nodes.countP (·.host) = 0 then none else some (nodes.countP (·.host) : Int)) ∧
    (tuCountLink link nodes).lookup "router_count" =
      (if nodes.countP (fun n => !n.host || n.daemon) = 0 then none else some (nodes.countP (fun n => !n.host || n.daemon) : Int)) ∧
    (∀ k, k ∉ ["node_count", "host_count", "router_count"] → (tuCountLink link nodes).lookup k = link.lookup k) ∧
    (∀ more, tuCountLink (tuCountLink link nodes) more = tuCountLink link nodes) := by
  have hn : ∀ k ∈ ["node_count", "host_count", "router_count"], link.lookup k = none := fun k hk => lookup_eq_none_iff.2 (h k hk)
  have hset : ∀ (l : List (String × Int)) (k : String) (v : Nat) (q : String), l.lookup k = none →
      (if v = 0 then l else (l.filter (fun x => x.1 != k)) ++ [(k, (v : Int))]).lookup q = if q = k then (if v = 0 then none else some (v : Int)) else l.lookup q := by
    intro l k v q hl
    by_cases hv : v = 0
    · rw [if_pos hv, if_pos hv]
      by_cases hq : q = k
      · rw [if_pos hq, hq, hl]
      · rw [if_neg hq]
    · rw [if_neg hv, if_neg hv]
      have hf : l.filter (fun x => x.1 != k) = l := by
        rw [List.filter_eq_self]
        intro x hx
        have : k ∉ l.map (·.1) := lookup_eq_none_iff.1 hl
        simp only [bne_iff_ne, ne_eq]
        rintro rfl
        exact this (List.mem_map_of_mem hx)
      rw [hf, List.lookup_append]
      by_cases hq : q = k
      · subst hq
        rw [hl, if_pos rfl]
        simp
      · rw [if_neg hq, lookup_cons_ne _ _ hq]
        cases l.lookup q <;> rfl
  have hl1 : ∀ q, (link ++ [("node_count", (nodes.length : Int))]).lookup q = if q = "node_count" then some (nodes.length : Int) else link.lookup q := by
    intro q
    rw [List.lookup_append]
    by_cases hq : q = "node_count"
    · subst hq
      rw [hn "node_count" (by simp)]
      simp
    · rw [if_neg hq, lookup_cons_ne _ _ hq]
      cases link.lookup q <;> rfl
  have hfin : ∀ q, (tuCountLink link nodes).lookup q =
      if q = "router_count" then (if nodes.countP (fun n => !n.host || n.daemon) = 0 then none else some (nodes.countP (fun n => !n.host || n.daemon) : Int))
      else if q = "host_count" then (if nodes.countP (·.host) = 0 then none else some (nodes.countP (·.host) : Int))
      else if q = "node_count" then some (nodes.length : Int) else link.lookup q := by
    intro q
    unfold tuCountLink
    rw [if_neg (by rw [hn "node_count" (by simp)]; decide)]
    simp only [tuCount_spec]
    have h1 : (link ++ [("node_count", (nodes.length : Int))]).lookup "host_count" = none := by
      rw [hl1, if_neg (by decide), hn "host_count" (by simp)]
    rw [hset _ _ _ _ (by rw [hset _ _ _ _ h1, if_neg (by decide), hl1, if_neg (by decide), hn "router_count" (by simp)])]
    by_cases hq : q = "router_count"
    · rw [if_pos hq, if_pos hq]
    · rw [if_neg hq, if_neg hq, hset _ _ _ _ h1, hl1]
  refine ⟨by rw [hfin]; rfl, by rw [hfin]; rfl, by rw [hfin]; rfl, fun k hk => ?_, fun more => ?_⟩
  · simp only [List.mem_cons, List.not_mem_nil, or_false, not_or] at hk
    rw [hfin, if_neg hk.2.2, if_neg hk.2.1, if_neg hk.1]
  · have hsome : ((tuCountLink link nodes).lookup "node_count").isSome = true := by rw [hfin]; rfl
    generalize tuCountLink link nodes = l at hsome
    unfold tuCountLink
    rw [if_pos hsome]

example : tuCountLink [("mtu", 1500)] [⟨true, false⟩, ⟨true, true⟩, ⟨false, false⟩] = [("mtu", 1500), ("node_count", 3), ("host_count", 2), ("router_count", 2)] := by
  decide +kernel

/-! ### Cleanup -/

/-- **C113**: the cleanup keeps all address pools, and in every pool it keeps exactly the attributes that don't have `_pfx` or `_eui` in their names. -/
theorem C113_clean_pools (pools : List (String × List (String × Val))) :
    List.Forall₂ (fun p q => q.1 = p.1 ∧ ∀ x, x ∈ q.2 ↔ x ∈ p.2 ∧ ¬ TextContains "_pfx" x.1 ∧ ¬ TextContains "_eui" x.1) pools (tuCleanPools pools) := by
  unfold tuCleanPools
  rw [List.forall₂_map_right_iff]
  refine List.forall₂_same.2 fun p _ => ⟨rfl, fun x => ?_⟩
  have h1 : ∀ k, pySubstr k.toList x.1.toList = true ↔ TextContains k x.1 := fun k => pySubstr_iff _ _
  rw [List.mem_filter, ← h1, ← h1]
  simp

/-- **C113**: the cleanup removes group settings and nothing else; there is no empty dictionary of groups. -/
theorem C113_clean_groups (groups : List (String × Val)) :
    (∀ g, tuCleanGroups (some groups) = some g → g ≠ [] ∧ ∀ x, x ∈ g ↔ x ∈ groups ∧ ¬ ∃ r, x.1.toList = '_' :: r) ∧
    (tuCleanGroups (some groups) = none ↔ ∀ x ∈ groups, ∃ r, x.1.toList = '_' :: r) := by
  have hh : ∀ x : String × Val, (x.1.toList.head? != some '_') = true ↔ ¬ ∃ r, x.1.toList = '_' :: r := by
    intro x
    rw [bne_iff_ne, ne_eq, List.head?_eq_some_iff]
  unfold tuCleanGroups
  simp only
  refine ⟨fun g hg => ?_, ?_⟩
  · split at hg
    · cases hg
    · rename_i hne
      cases hg
      refine ⟨by simpa using hne, fun x => ?_⟩
      rw [List.mem_filter, hh]
  · constructor
    · intro h x hx
      split at h
      · rename_i he
        rw [List.isEmpty_iff, List.filter_eq_nil_iff] at he
        exact Classical.not_not.1 (fun hn => he x hx ((hh x).2 hn))
      · cases h
    · intro h
      rw [if_pos]
      rw [List.isEmpty_iff, List.filter_eq_nil_iff]
      exact fun x hx hn => (hh x).1 hn (h x hx)

example : tuCleanGroups (some [("_auto_create", .bool true), ("g", .null)]) = some [("g", .null)] ∧ tuCleanGroups (some [("_auto_create", .bool true)]) = none ∧
    tuCleanPools [("lan", [("ipv4", .null), ("ipv4_pfx", .null)])] = [("lan", [("ipv4", .null)])] := by decide +kernel

end Netlab
