import Verif.Model.Inspect
import Verif.Spec.Inspect
import Verif.Props.Outputs
import Verif.Lemmas.Layers
import Verif.Props.ToolRun
/-!
# C149: displayed data are the requested data
-/

namespace Netlab

open Spec

theorem inspect_parse (fmt expr : List Char) (hf : Without [':', '='] fmt) (he : Without [':', '='] expr) :
    parseOutput (fmt ++ ':' :: expr) = ⟨fmt, [expr], none⟩ := by
  have := C147_parse fmt [expr] none hf (by intro f h; rw [List.mem_singleton.mp h]; exact he) (by intro l h; cases h)
  rw [← this]
  congr 1
  simp [outSyntax, List.intercalate]

/-- **C149**: `netlab inspect` displays the value of the expression; without an expression, it displays all data. -/
theorem C149_inspect (eval : String → List (String × Val) → Option Val) (fmt expr : List Char) (topo : List (String × Val))
    (hf : Without [':', '='] fmt) (he : Without [':', '='] expr) (h1 : String.ofList expr ≠ "nodefault") (h2 : String.ofList expr ≠ "noaddr") :
    inspectValue eval fmt expr topo =
      ⟨['-'], false, if expr = [] ∨ expr = ['.'] then some (.dict topo) else eval (String.ofList expr) topo⟩ := by
  have hm : Without [':', '='] (if fmt.isEmpty then "yaml".toList else fmt) := by
    split
    · unfold Without; decide
    · exact hf
  have dot : ∀ x : List Char, String.ofList x = "." → x = ['.'] := by
    intro x hx
    have := congrArg String.toList hx
    simpa using this
  unfold inspectValue
  cases expr with
  | nil =>
    simp only [List.isEmpty_nil, if_true]
    rw [inspect_parse _ ['.'] hm (by unfold Without; decide)]
    unfold yamlWrite
    simp [yamlFormats, show String.ofList ['.'] = "." from rfl]
  | cons c r =>
    simp only [List.isEmpty_cons, Bool.false_eq_true, if_false, reduceCtorEq, false_or]
    rw [inspect_parse _ (c :: r) hm he]
    unfold yamlWrite
    simp only [List.map_cons, List.map_nil, Option.getD_none, yamlFormats, if_neg h1, if_neg h2]
    by_cases hd : c :: r = ['.']
    · rw [if_pos hd, hd, if_pos rfl]
    · rw [if_neg hd, if_neg (fun h => hd (dot _ h))]

/-- **C149** (defect): the part of an expression after a colon (for example, in a slice) is ignored. -/
theorem C149_colon (eval : String → List (String × Val) → Option Val) (a b : List Char) (topo : List (String × Val)) (ha : a ≠ [])
    (h : Without [':', '='] a) (hb : '=' ∉ b)
    (h1 : String.ofList a ≠ "nodefault") (h2 : String.ofList a ≠ "noaddr") (h3 : String.ofList a ≠ ".") :
    inspectValue eval [] (a ++ ':' :: b) topo = ⟨['-'], false, eval (String.ofList a) topo⟩ := by
  unfold inspectValue
  have hne : (a ++ ':' :: b).isEmpty = false := by cases a <;> rfl
  rw [hne]
  simp only [List.isEmpty_nil, if_true, Bool.false_eq_true, if_false]
  have hno : '=' ∉ "yaml".toList ++ ':' :: (a ++ ':' :: b) := by
    simp only [List.mem_append, List.mem_cons, not_or]
    exact ⟨by decide, by decide, h '=' (by simp), by decide, hb⟩
  unfold parseOutput
  dsimp only
  rw [splitOnChar_one '=' _ hno]
  simp only [List.headD_cons, List.tail_cons, List.head?_nil, Option.map_none]
  rw [splitOnChar_append ':' "yaml".toList _ (by decide), splitOnChar_append ':' a _ (h ':' (by simp))]
  unfold yamlWrite
  simp [yamlFormats, h1, h2, h3]

/-- **C149** (defect): the part of an expression after an equal sign (for example, in a comparison) is used as the name of the output
file, and the file is overwritten. -/
theorem C149_equal (eval : String → List (String × Val) → Option Val) (a b : List Char) (topo : List (String × Val)) (ha : a ≠ [])
    (h : Without [':', '='] a) (hb : Without ['=', ','] b) :
    (inspectValue eval [] (a ++ '=' :: b) topo).file = b := by
  unfold inspectValue
  have hne : (a ++ '=' :: b).isEmpty = false := by cases a <;> rfl
  rw [hne]
  simp only [List.isEmpty_nil, if_true, Bool.false_eq_true, if_false]
  have := C147_parse "yaml".toList [a] (some [b]) (by unfold Without; decide) (by intro f hf; rw [List.mem_singleton.mp hf]; exact h)
    (by intro l hl; cases hl; exact ⟨by simp, fun f hf => by rw [List.mem_singleton.mp hf]; exact hb⟩)
  have e : outSyntax "yaml".toList [a] (some [b]) = "yaml".toList ++ ':' :: (a ++ '=' :: b) := by
    simp [outSyntax, List.intercalate]
  rw [← e, this]
  rfl

/-! ### Attributes -/

theorem at_two (d : List (String × Val)) (a b : String) : Val.at (.dict d) [a, b] = match d.lookup a with
    | some (.dict e) => e.lookup b
    | _ => none := by
  rw [at_dict_cons]
  cases d.lookup a with
  | none => rfl
  | some v =>
    cases v with
    | dict e =>
      simp only [Option.bind_some]
      rw [at_dict_cons]
      cases e.lookup b <;> simp [Val.at]
    | _ => rfl

theorem lookup_attrTable (s : List (String × Val)) (k : String) : (attrTable s).lookup k = Val.at (.dict s) ["attributes", k] := by
  rw [at_two]
  unfold attrTable
  cases s.lookup "attributes" with
  | none => rfl
  | some v => cases v <;> rfl

theorem attrScope_at {settings s : List (String × Val)} {module : String} (h : attrScope settings module = some s) (k : String) :
    (attrTable s).lookup k = Val.at (.dict settings) (attrPath module k) := by
  rw [lookup_attrTable]
  generalize hR : Val.at (.dict s) ["attributes", k] = R
  unfold attrScope at h
  unfold attrPath
  by_cases hm : module = ""
  · rw [if_pos hm] at h
    rw [if_pos hm, Option.some.inj h]
    exact hR.symm
  · rw [if_neg hm] at h
    rw [if_neg hm]
    split at h
    · rename_i m hl
      split at h
      · rw [Option.some.inj h] at hl
        rw [show [module, "attributes"] ++ [k] = module :: ["attributes", k] from rfl, at_dict_cons, hl]
        exact hR.symm
      · cases h
    · cases h

theorem mem_attrNames (settings : List (String × Val)) (k : String) :
    (attrNames ((attrTable settings).lookup "link_no_propagate")).contains k = true ↔ NotPropagated settings k := by
  rw [lookup_attrTable]
  unfold NotPropagated
  cases Val.at (.dict settings) ["attributes", "link_no_propagate"] with
  | none => simp [attrNames]
  | some v =>
    cases v with
    | list l =>
      simp only [attrNames, List.contains_iff_mem, List.mem_filterMap, Option.some.injEq, Val.list.injEq, exists_eq_left']
      constructor
      · rintro ⟨v, hv, h⟩
        split at h
        · rw [← Option.some.inj h]; exact hv
        · cases h
      · intro h
        exact ⟨_, h, rfl⟩
    | _ => simp [attrNames]

/-- **C149**: attributes of links, nodes and other objects are displayed as they are defined; unknown modules and objects are errors. -/
theorem C149_attributes (settings : List (String × Val)) (module kind : String) (hk : kind ≠ "") (hi : kind ≠ "interface") :
    attrSubset settings module kind = Val.at (.dict settings) (attrPath module kind) := by
  unfold attrSubset
  rw [if_neg (fun h => hk h.1)]
  cases hs : attrScope settings module with
  | some s =>
    dsimp only
    rw [if_neg hk]
    have := attrScope_at hs kind
    rw [← this]
    cases (attrTable s).lookup kind with
    | none => rfl
    | some v =>
      dsimp only
      rw [if_neg hi]
  | none =>
    dsimp only
    unfold attrScope at hs
    unfold attrPath
    by_cases hm : module = ""
    · rw [if_pos hm] at hs; cases hs
    · rw [if_neg hm] at hs
      rw [if_neg hm, show [module, "attributes"] ++ [kind] = module :: ["attributes", kind] from rfl, at_dict_cons]
      cases hl : settings.lookup module with
      | none => rfl
      | some v =>
        rw [hl] at hs
        cases v with
        | dict m =>
          simp only [Option.bind_some]
          rw [at_two]
          dsimp only at hs
          cases ha : m.lookup "attributes" with
          | none => rfl
          | some w => rw [ha] at hs; simp at hs
        | _ => rfl

/-- **C149**: displayed interface attributes are attributes of interfaces and those attributes of links that are propagated to
interfaces (definitions of interface attributes take precedence). -/
theorem C149_interface (settings : List (String × Val)) (hu : Val.UniqueKeys (.dict settings)) (module : String)
    (intf link : List (String × Val)) (h1 : Val.at (.dict settings) (attrPath module "interface") = some (.dict intf))
    (h2 : Val.at (.dict settings) (attrPath module "link") = some (.dict link)) :
    ∃ d, attrSubset settings module "interface" = some (.dict d) ∧
      ∀ k p w, Val.leafAt (.dict d) (k :: p) w ↔ Val.leafAt (.dict intf) (k :: p) w ∨
        (Val.leafAt (.dict link) (k :: p) w ∧ ¬ NotPropagated settings k ∧ Untouched (.dict intf) (k :: p)) := by
  have hscope : ∃ s, attrScope settings module = some s := by
    unfold attrScope
    unfold attrPath at h1
    by_cases hm : module = ""
    · exact ⟨settings, by rw [if_pos hm]⟩
    · rw [if_neg hm, show [module, "attributes"] ++ ["interface"] = module :: ["attributes", "interface"] from rfl, at_dict_cons] at h1
      rw [if_neg hm]
      cases hl : settings.lookup module with
      | none => rw [hl] at h1; cases h1
      | some v =>
        rw [hl] at h1
        cases v with
        | dict m =>
          simp only [Option.bind_some] at h1
          rw [at_two] at h1
          cases ha : m.lookup "attributes" with
          | none => rw [ha] at h1; cases h1
          | some w => exact ⟨m, by simp [ha]⟩
        | _ => cases h1
  obtain ⟨s, hs⟩ := hscope
  have e1 := attrScope_at hs "interface"
  have e2 := attrScope_at hs "link"
  rw [h1] at e1
  rw [h2] at e2
  have hui : Val.UniqueKeys (.dict intf) := by
    intro q d hq
    refine hu (attrPath module "interface" ++ q) d ?_
    rw [at_append, h1]
    exact hq
  unfold attrSubset
  rw [if_neg (by simp), hs]
  dsimp only
  rw [if_neg (by decide), e1]
  dsimp only
  rw [if_pos rfl, e2]
  refine ⟨_, rfl, ?_⟩
  intro k p w
  have := mergeVal_leaves (.dict (link.filter (fun p =>
    !(attrNames ((attrTable settings).lookup "link_no_propagate")).contains p.1))) (.dict intf) rfl rfl hui (k :: p) w
  rw [mergeVal_dict] at this
  rw [this]
  apply or_congr Iff.rfl
  rw [← and_assoc]
  apply and_congr _ Iff.rfl
  unfold Val.leafAt
  rw [at_dict_cons, at_dict_cons]
  have hl : ∀ l : List (String × Val), (l.filter (fun p =>
      !(attrNames ((attrTable settings).lookup "link_no_propagate")).contains p.1)).lookup k =
      if (attrNames ((attrTable settings).lookup "link_no_propagate")).contains k = true then none else l.lookup k := by
    intro l
    generalize hN : attrNames ((attrTable settings).lookup "link_no_propagate") = N
    clear hN
    induction l with
    | nil => simp
    | cons x r ih =>
      obtain ⟨a, b⟩ := x
      by_cases hx : N.contains a = true
      · rw [List.filter_cons_of_neg (by simp only [hx]; simp), ih, List.lookup_cons]
        by_cases ha : k = a
        · subst ha
          rw [if_pos hx, if_pos hx]
        · have : (k == a) = false := by simpa using ha
          rw [this]
      · have hx' : N.contains a = false := by simpa using hx
        rw [List.filter_cons_of_pos (by simp only [hx']; simp), List.lookup_cons, List.lookup_cons, ih]
        by_cases ha : k = a
        · subst ha
          simp only [beq_self_eq_true]
          rw [if_neg hx]
        · have : (k == a) = false := by simpa using ha
          rw [this]
  rw [hl]
  by_cases hp : (attrNames ((attrTable settings).lookup "link_no_propagate")).contains k = true
  · rw [if_pos hp]
    simp [(mem_attrNames settings k).mp hp]
  · rw [if_neg hp]
    have : ¬ NotPropagated settings k := fun h => hp ((mem_attrNames settings k).mpr h)
    simp [this]

/-! ### Examples -/

/-- Some attributes -/
def demoAttrs : List (String × Val) :=
  [("attributes", .dict [("link", .dict [("bandwidth", .str "int"), ("group", .str "str"), ("name", .str "str")]),
     ("interface", .dict [("name", .str "id")]), ("link_no_propagate", .list [.str "group"])]),
   ("bgp", .dict [("attributes", .dict [("node", .dict [("as", .str "asn")]), ("x", .list [])])])]

example : attrSubset demoAttrs "" "interface" = some (.dict [("bandwidth", .str "int"), ("name", .str "id")]) ∧
    attrSubset demoAttrs "bgp" "node" = some (.dict [("as", .str "asn")]) ∧ attrSubset demoAttrs "bgp" "link" = none ∧
    attrSubset demoAttrs "bgp" "" = some (.dict [("node", .dict [("as", .str "asn")])]) ∧ attrSubset demoAttrs "ospf" "node" = none := by
  decide +kernel

example : Val.UniqueKeys (.dict demoAttrs) := by
  unfold demoAttrs
  repeat' (first
    | exact trivial
    | (apply uniqueKeys_leaf; rfl)
    | (apply uniqueKeys_of_mem; · decide)
    | constructor)

example : inspectValue (fun e t => t.lookup e) [] "nodes".toList [("nodes", .list []), ("links", .null)] = ⟨['-'], false, some (.list [])⟩ ∧
    inspectValue (fun e t => t.lookup e) [] "nodes[0:2]".toList [("nodes", .list []), ("links", .null)] = ⟨['-'], false, none⟩ ∧
    (inspectValue (fun e t => t.lookup e) [] "x>=netlab.lock".toList []).file = "netlab.lock".toList := by decide +kernel

/-- **C149**: the YAML output module writes into the first requested file and reports an error exactly when there are other file names;
without a requested file it writes into the default file or to standard output. -/
theorem C149_files (eval : String → List (String × Val) → Option Val) (filename : Option (List Char)) (spec : OutSpec)
    (topo : List (String × Val)) :
    (∀ x r, spec.filenames = some (x :: r) →
      (yamlWrite eval filename spec topo).file = x ∧ ((yamlWrite eval filename spec topo).error = true ↔ r ≠ [])) ∧
    (spec.filenames = none → (yamlWrite eval filename spec topo).error = false ∧
      (∀ f, filename = some f → (yamlWrite eval filename spec topo).file = f) ∧
      (filename = none → (yamlWrite eval filename spec topo).file = ['-'])) := by
  constructor
  · intro x r h
    unfold yamlWrite
    cases r <;> simp [h]
  · intro h
    unfold yamlWrite
    simp only [h]
    exact ⟨trivial, fun f hf => by rw [hf]; rfl, fun hf => by rw [hf]; rfl⟩

/-- Non-vacuity: one file name and two file names -/
example : (yamlWrite (fun e t => t.lookup e) none (parseOutput "yaml:x=a".toList) []).error = false ∧
    (yamlWrite (fun e t => t.lookup e) none (parseOutput "yaml:x=a,b".toList) []).error = true := by decide +kernel

end Netlab
