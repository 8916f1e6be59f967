import Verif.Spec.Outputs
import Verif.Props.Nodeset
import Verif.Lemmas.Box
/-!
# C147: output modules create the requested files
-/

namespace Netlab

open Spec

theorem splitOnChar_head (sep : Char) (l : List Char) : (splitOnChar sep l).headD [] = l.takeWhile (· != sep) := by
  induction l with
  | nil => rfl
  | cons c r ih =>
    by_cases h : c = sep
    · subst h
      simp [splitOnChar]
    · have hb : (c == sep) = false := by simpa using h
      have hn : (c != sep) = true := by simpa using h
      rw [splitOnChar, hb, List.takeWhile_cons, hn]
      simp only [Bool.false_eq_true, if_false, if_true]
      cases hs : splitOnChar sep r with
      | nil => exact (splitOnChar_ne_nil sep r hs).elim
      | cons p ps =>
        rw [hs] at ih
        simp only [List.headD_cons] at ih ⊢
        rw [ih]

theorem not_mem_intercalate {c sep : Char} (hs : c ≠ sep) (l : List (List Char)) (h : ∀ x ∈ l, c ∉ x) : c ∉ [sep].intercalate l := by
  induction l with
  | nil => simp [List.intercalate]
  | cons a r ih =>
    cases r with
    | nil => simpa [List.intercalate] using h a (by simp)
    | cons b r =>
      have he : [sep].intercalate (a :: b :: r) = a ++ [sep] ++ [sep].intercalate (b :: r) := by
        simp [List.intercalate, List.intersperse]
      rw [he]
      simp only [List.mem_append, List.mem_singleton, not_or]
      exact ⟨⟨h a (by simp), hs⟩, ih (fun x hx => h x (List.mem_cons_of_mem _ hx))⟩

/-- **C147**: an output specification is understood as it is documented: `module:format:format=file,file`. -/
theorem C147_parse (m : List Char) (fmts : List (List Char)) (files : Option (List (List Char)))
    (hm : Without [':', '='] m) (hf : ∀ f ∈ fmts, Without [':', '='] f)
    (hl : ∀ l, files = some l → l ≠ [] ∧ ∀ f ∈ l, Without ['=', ','] f) :
    parseOutput (outSyntax m fmts files) = ⟨m, fmts, files⟩ := by
  have hcol : splitOnChar ':' ([':'].intercalate (m :: fmts)) = m :: fmts := by
    apply splitOnChar_intercalate
    · simp
    · intro e he
      rcases List.mem_cons.mp he with rfl | he
      · exact hm ':' (by simp)
      · exact hf e he ':' (by simp)
  have hno : '=' ∉ [':'].intercalate (m :: fmts) := by
    apply not_mem_intercalate (by decide)
    intro e he
    rcases List.mem_cons.mp he with rfl | he
    · exact hm '=' (by simp)
    · exact hf e he '=' (by simp)
  unfold parseOutput outSyntax
  cases files with
  | none =>
    dsimp only
    rw [List.append_nil, splitOnChar_one '=' _ hno]
    simp only [List.headD_cons, List.tail_cons, List.head?_nil, Option.map_none, hcol]
  | some l =>
    obtain ⟨hne, hl⟩ := hl l rfl
    dsimp only
    have hno' : '=' ∉ [','].intercalate l := not_mem_intercalate (by decide) l (fun f hf => hl f hf '=' (by simp))
    rw [splitOnChar_append '=' _ _ hno, splitOnChar_one '=' _ hno']
    simp only [List.headD_cons, List.tail_cons, List.head?_cons, Option.map_some, hcol]
    rw [splitOnChar_intercalate ',' l hne (fun f hf => hl f hf ',' (by simp))]

theorem takeWhile_twice (p q : Char → Bool) (l : List Char) : (l.takeWhile q).takeWhile p = l.takeWhile (fun c => p c && q c) := by
  induction l with
  | nil => rfl
  | cons c r ih =>
    rw [List.takeWhile_cons, List.takeWhile_cons]
    cases hq : q c <;> cases hp : p c <;> simp [hp, ih]

theorem takeWhile_all (p : Char → Bool) (l : List Char) (h : ∀ x ∈ l, p x = true) : l.takeWhile p = l := by
  have := List.takeWhile_append_of_pos (l₂ := []) h
  simpa using this

/-- **C147**: the loaded module is always the one in the output specification. -/
theorem C147_module (s : List Char) : (parseOutput s).output = outputModule s := by
  unfold parseOutput outputModule
  dsimp only
  rw [splitOnChar_head, splitOnChar_head, takeWhile_twice]

theorem takeWhile_to (p : Char → Bool) (a : List Char) (c : Char) (r : List Char) (ha : ∀ x ∈ a, p x = true) (hc : p c = false) :
    (a ++ c :: r).takeWhile p = a := by
  rw [List.takeWhile_append_of_pos ha, List.takeWhile_cons, hc]
  simp

/-- **C147**: the settings of the output module (from system or topology defaults) are used unless the specification has a file name
and no format (defect: in that case, the settings are ignored). -/
theorem C147_settings (m : List Char) (fmts : List (List Char)) (files : Option (List (List Char))) (hm : Without [':', '='] m) :
    outputSettings (outSyntax m fmts files) = m ↔ fmts ≠ [] ∨ files = none := by
  have hp : ∀ x ∈ m, (x != ':') = true := by
    intro x hx
    simp only [bne_iff_ne, ne_eq]
    rintro rfl
    exact hm ':' (by simp) hx
  unfold outputSettings outSyntax
  rw [splitOnChar_head]
  cases fmts with
  | cons f r =>
    have he : [':'].intercalate (m :: f :: r) = m ++ ':' :: [':'].intercalate (f :: r) := by
      simp [List.intercalate, List.intersperse]
    rw [he, List.append_assoc, List.cons_append, takeWhile_to _ _ _ _ hp (by decide)]
    simp
  | nil =>
    have he : [':'].intercalate [m] = m := by simp [List.intercalate]
    rw [he]
    cases files with
    | none =>
      simp only [List.append_nil, ne_eq, not_true_eq_false, or_true, iff_true]
      exact takeWhile_all _ _ hp
    | some l =>
      simp only [ne_eq, not_true_eq_false, reduceCtorEq, or_self, iff_false]
      rw [List.takeWhile_append_of_pos hp, List.takeWhile_cons]
      simp

/-- **C147** (defect): a file name is truncated at the first `=`. -/
theorem C147_truncated (m a b : List Char) (hm : Without [':', '='] m) (ha : Without ['=', ','] a) :
    parseOutput (m ++ '=' :: (a ++ '=' :: b)) = ⟨m, [], some [a]⟩ := by
  unfold parseOutput
  dsimp only
  rw [splitOnChar_append '=' m _ (hm '=' (by simp)), splitOnChar_append '=' a _ (ha '=' (by simp))]
  simp only [List.headD_cons, List.tail_cons, List.head?_cons, Option.map_some]
  rw [splitOnChar_one ':' m (hm ':' (by simp)), splitOnChar_one ',' a (ha ',' (by simp))]
  rfl

/-! ### `netlab create` -/

theorem createOutputs_clean (known : List Char → Bool) (write : List Char → Nat) (pre r : List (List Char))
    (h : ∀ s ∈ pre, known (outputModule s) = true ∧ write s = 0) :
    createOutputs known write 0 (pre ++ r) =
      { createOutputs known write 0 r with done := pre ++ (createOutputs known write 0 r).done } := by
  induction pre with
  | nil => rfl
  | cons s p ih =>
    obtain ⟨h1, h2⟩ := h s (by simp)
    rw [List.cons_append, createOutputs, if_pos h1, if_pos (by omega), ih (fun x hx => h x (List.mem_cons_of_mem _ hx))]
    rfl

theorem createOutputs_unknown (known : List Char → Bool) (write : List Char → Nat) (n : Nat) (bad r : List (List Char))
    (h : ∀ s ∈ bad, known (outputModule s) = false) :
    createOutputs known write n (bad ++ r) = createOutputs known write (n + bad.length) r := by
  induction bad generalizing n with
  | nil => rfl
  | cons s p ih =>
    rw [List.cons_append, createOutputs, if_neg (by rw [h s (by simp)]; simp), ih (n + 1) (fun x hx => h x (List.mem_cons_of_mem _ hx))]
    congr 1
    simp only [List.length_cons]
    omega

/-- **C147**: `netlab create` executes all output modules in the specified order when there are no errors; an error in an output
module terminates the program. -/
theorem C147_outputs (known : List Char → Bool) (write : List Char → Nat) (pre : List (List Char))
    (h : ∀ s ∈ pre, known (outputModule s) = true ∧ write s = 0) :
    createOutputs known write 0 pre = ⟨pre, 0, false⟩ ∧
    ∀ s r, known (outputModule s) = true → write s ≠ 0 → createOutputs known write 0 (pre ++ s :: r) = ⟨pre ++ [s], write s, true⟩ := by
  constructor
  · have := createOutputs_clean known write pre [] h
    rw [List.append_nil] at this
    rw [this]
    simp [createOutputs]
  · intro s r hk hw
    rw [createOutputs_clean known write pre _ h, createOutputs, if_pos hk, if_neg (by omega)]
    simp

/-- **C147** (defect): after unknown output modules, one more output module is executed before the program terminates; when they are
the last ones, the program is not terminated (it ends with the exit status of a successful command). -/
theorem C147_unknown (known : List Char → Bool) (write : List Char → Nat) (pre bad : List (List Char)) (hb : bad ≠ [])
    (h : ∀ s ∈ pre, known (outputModule s) = true ∧ write s = 0) (h' : ∀ s ∈ bad, known (outputModule s) = false) :
    createOutputs known write 0 (pre ++ bad) = ⟨pre, bad.length, false⟩ ∧
    ∀ s r, known (outputModule s) = true →
      createOutputs known write 0 (pre ++ bad ++ s :: r) = ⟨pre ++ [s], bad.length + write s, true⟩ := by
  have hpos : 0 < bad.length := List.length_pos_iff.mpr hb
  constructor
  · rw [createOutputs_clean known write pre _ h]
    have := createOutputs_unknown known write 0 bad [] h'
    rw [List.append_nil] at this
    rw [this]
    simp [createOutputs]
  · intro s r hk
    rw [List.append_assoc, createOutputs_clean known write pre _ h, createOutputs_unknown known write 0 bad _ h', createOutputs, if_pos hk,
      if_neg (by omega)]
    simp

/-! ### YAML -/

/-- The key removed by a format -/
theorem yaml_removed (topo : List (String × Val)) (hd : (topo.lookup "defaults").isSome) (ha : (topo.lookup "addressing").isSome)
    (eval : String → List (String × Val) → Option Val) (fmts : List String) (h : ∀ f ∈ fmts, f = "nodefault" ∨ f = "noaddr") (hn : fmts.Nodup)
    (rest : List String) :
    ∃ v, yamlFormats eval topo (fmts ++ rest) = yamlFormats eval v rest ∧
      Removed topo (fmts.map (fun f => if f = "nodefault" then "defaults" else "addressing")) v := by
  match fmts, h, hn with
  | [], _, _ => exact ⟨topo, rfl, fun k => by simp⟩
  | [f], h, _ =>
    rcases h f (by simp) with rfl | rfl
    · refine ⟨popKey topo "defaults", by simp [yamlFormats, hd], fun k => ?_⟩
      rw [lookup_popKey]
      simp
    · refine ⟨popKey topo "addressing", by simp [yamlFormats, ha], fun k => ?_⟩
      rw [lookup_popKey]
      simp
  | [f, g], h, hn =>
    rcases h f (by simp) with rfl | rfl <;> rcases h g (by simp) with rfl | rfl
    · simp at hn
    · refine ⟨popKey (popKey topo "defaults") "addressing", by simp [yamlFormats, hd, ha, lookup_popKey], fun k => ?_⟩
      rw [lookup_popKey, lookup_popKey]
      by_cases h1 : k = "defaults" <;> by_cases h2 : k = "addressing" <;> simp [h1, h2]
    · refine ⟨popKey (popKey topo "addressing") "defaults", by simp [yamlFormats, hd, ha, lookup_popKey], fun k => ?_⟩
      rw [lookup_popKey, lookup_popKey]
      by_cases h1 : k = "defaults" <;> by_cases h2 : k = "addressing" <;> simp [h1, h2]
    · simp at hn
  | f :: g :: e :: r, h, hn =>
    exfalso
    simp only [List.nodup_cons, List.mem_cons, not_or] at hn
    obtain ⟨⟨h1, h2, _⟩, ⟨h3, _⟩, _⟩ := hn
    rcases h f (by simp) with rfl | rfl <;> rcases h g (by simp) with rfl | rfl <;> rcases h e (by simp) with rfl | rfl <;> simp_all

/-- **C147**: the YAML output has all topology data apart from defaults (`nodefault`) and address pools (`noaddr`); the first other
format is an expression evaluated with these data, and the remaining formats are ignored. -/
theorem C147_yaml (topo : List (String × Val)) (hd : (topo.lookup "defaults").isSome) (ha : (topo.lookup "addressing").isSome)
    (eval : String → List (String × Val) → Option Val) (fmts : List String) (h : ∀ f ∈ fmts, f = "nodefault" ∨ f = "noaddr") (hn : fmts.Nodup) :
    ∃ v, Removed topo (fmts.map (fun f => if f = "nodefault" then "defaults" else "addressing")) v ∧
      yamlFormats eval topo fmts = some (.dict v) ∧
      ∀ e rest, e ≠ "nodefault" → e ≠ "noaddr" → yamlFormats eval topo (fmts ++ e :: rest) = if e = "." then some (.dict v) else eval e v := by
  obtain ⟨v, h1, h2⟩ := yaml_removed topo hd ha eval fmts h hn []
  refine ⟨v, h2, ?_, ?_⟩
  · rw [List.append_nil] at h1
    rw [h1]
    rfl
  · intro e rest he1 he2
    have key : ∀ (fm : List String) (t : List (String × Val)) (w : List (String × Val)), (∀ f ∈ fm, f = "nodefault" ∨ f = "noaddr") →
        yamlFormats eval t fm = some (.dict w) → yamlFormats eval t (fm ++ e :: rest) = yamlFormats eval w (e :: rest) := by
      intro fm
      induction fm with
      | nil =>
        intro t w _ hh
        simp only [yamlFormats, Option.some.injEq, Val.dict.injEq] at hh
        rw [hh]
        rfl
      | cons f r ih =>
        intro t w hfm hh
        rw [List.cons_append]
        rw [yamlFormats] at hh ⊢
        rcases hfm f (by simp) with rfl | rfl
        · rw [if_pos rfl] at hh ⊢
          split at hh
          · rename_i hx
            rw [if_pos hx]
            exact ih _ _ (fun x hx => hfm x (List.mem_cons_of_mem _ hx)) hh
          · cases hh
        · rw [if_neg (by decide), if_pos rfl] at hh ⊢
          split at hh
          · rename_i hx
            rw [if_pos hx]
            exact ih _ _ (fun x hx => hfm x (List.mem_cons_of_mem _ hx)) hh
          · cases hh
    rw [List.append_nil] at h1
    rw [key fmts topo v h (by rw [h1]; rfl), yamlFormats, if_neg he1, if_neg he2]

/-! ### External tools -/

open Classical in
/-- **C147**: exactly the files in the configuration of a tool are created, with content produced by the output module of the tool or
by a template; an incomplete entry is reported. -/
theorem C147_tools (tool : String) (render : Option (String → String)) (tmpl : String → Option String) (l : List ToolCfg)
    (ht : ∀ c ∈ l, ∀ t, c.template = some t → tmpl t ≠ none) (hr : render ≠ none ∨ ∀ c ∈ l, c.render = none) :
    (toolFiles tool render tmpl l).fatal = false ∧
    (toolFiles tool render tmpl l).errors = (l.filter (fun c => decide (Incomplete c))).length ∧
    ∀ name text, (name, text) ∈ (toolFiles tool render tmpl l).files ↔
      ∃ c ∈ l, ∃ d, c.dest = some d ∧ name = tool ++ "/" ++ d ∧ ToolContent render tmpl c text := by
  induction l with
  | nil => simp [toolFiles]
  | cons c r ih =>
    obtain ⟨h1, h2, h3⟩ := ih (fun x hx => ht x (List.mem_cons_of_mem _ hx))
      (hr.imp id (fun h x hx => h x (List.mem_cons_of_mem _ hx)))
    have hsplit : ∀ name text, (∃ x ∈ c :: r, ∃ d, x.dest = some d ∧ name = tool ++ "/" ++ d ∧ ToolContent render tmpl x text) ↔
        (∃ d, c.dest = some d ∧ name = tool ++ "/" ++ d ∧ ToolContent render tmpl c text) ∨
        (name, text) ∈ (toolFiles tool render tmpl r).files := by
      intro name text
      rw [h3]
      simp only [List.mem_cons, exists_eq_or_imp]
    rw [toolFiles]
    cases hd : c.dest with
    | none =>
      have hi : Incomplete c := Or.inl hd
      refine ⟨h1, ?_, ?_⟩
      · rw [List.filter_cons_of_pos (by simpa using hi), List.length_cons, ← h2]
      · intro name text
        rw [hsplit]
        simp [hd]
    | some d =>
      dsimp only
      cases hre : c.render with
      | some f =>
        have hi : ¬ Incomplete c := by simp [Incomplete, hd, hre]
        cases render with
        | none =>
          rcases hr with hr | hr
          · exact (hr rfl).elim
          · rw [hr c (by simp)] at hre
            cases hre
        | some g =>
          refine ⟨h1, ?_, ?_⟩
          · rw [List.filter_cons_of_neg (by simpa using hi), ← h2]
          · intro name text
            rw [hsplit]
            simp only [List.mem_cons, Prod.mk.injEq, hd, Option.some.injEq, exists_eq_left', ToolContent, hre, reduceCtorEq, false_and,
              exists_false, or_false]
            have : (∃ f_1 g_1, f = f_1 ∧ g = g_1 ∧ text = g_1 f_1) ↔ text = g f :=
              ⟨fun ⟨_, _, ha, hb, hc⟩ => by rw [ha, hb, hc], fun h => ⟨f, g, rfl, rfl, h⟩⟩
            rw [this]
      | none =>
        dsimp only
        cases hte : c.template with
        | none =>
          have hi : Incomplete c := Or.inr ⟨hre, hte⟩
          refine ⟨h1, ?_, ?_⟩
          · rw [List.filter_cons_of_pos (by simpa using hi), List.length_cons, ← h2]
          · intro name text
            rw [hsplit]
            simp [ToolContent, hre, hte]
        | some t =>
          have hi : ¬ Incomplete c := by simp [Incomplete, hd, hte]
          dsimp only
          cases hx : tmpl t with
          | none => exact (ht c (by simp) t hte hx).elim
          | some txt =>
            refine ⟨h1, ?_, ?_⟩
            · rw [List.filter_cons_of_neg (by simpa using hi), ← h2]
            · intro name text
              rw [hsplit]
              simp [ToolContent, hre, hte, hd, hx]
              rw [show (txt = text) = (text = txt) from propext eq_comm]

/-- **C147** (defect): when there's no output module for the tool, the error is reported but the file is created without content. -/
theorem C147_tools_empty (tool : String) (tmpl : String → Option String) (c : ToolCfg) (d f : String) (r : List ToolCfg)
    (hd : c.dest = some d) (hf : c.render = some f) :
    (tool ++ "/" ++ d, "") ∈ (toolFiles tool none tmpl (c :: r)).files ∧ 0 < (toolFiles tool none tmpl (c :: r)).errors := by
  rw [toolFiles, hd]
  dsimp only
  rw [hf]
  simp

/-! ### Examples -/

example : parseOutput "graph:bgp:vrf=a.dot,b:c.dot".toList = ⟨"graph".toList, ["bgp".toList, "vrf".toList], some ["a.dot".toList, "b:c.dot".toList]⟩ ∧
    outputSettings "graph:bgp=a.dot".toList = "graph".toList ∧ outputSettings "graph=a.dot".toList = "graph=a.dot".toList ∧
    outSyntax "graph".toList ["bgp".toList] (some ["a.dot".toList]) = "graph:bgp=a.dot".toList ∧
    createOutputs (fun s => s != "x".toList) (fun _ => 0) 0 ["yaml".toList, "x".toList, "d2".toList, "graph".toList] =
      ⟨["yaml".toList, "d2".toList], 1, true⟩ := by decide +kernel

example : toolFiles "suzieq" (some (fun f => "<" ++ f ++ ">")) (fun _ => some "text")
      [⟨some "a.yml", some "fmt", none⟩, ⟨none, some "fmt", none⟩, ⟨some "b.cfg", none, some "b.j2"⟩, ⟨some "c", none, none⟩] =
    ⟨[("suzieq/a.yml", "<fmt>"), ("suzieq/b.cfg", "text")], 2, false⟩ := by decide +kernel

example : yamlFormats (fun e t => if e = "nodes" then t.lookup "nodes" else none)
      [("defaults", .null), ("nodes", .list []), ("addressing", .null)] ["noaddr", "nodefault"] = some (.dict [("nodes", .list [])]) := by
  decide +kernel

end Netlab
