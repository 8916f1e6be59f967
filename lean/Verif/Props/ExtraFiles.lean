import Verif.Spec.ExtraFiles
import Verif.Props.FileMap
import Verif.Props.Files
import Verif.Props.LibvirtNet
/-!
# C135: files generated for containers
-/

namespace Netlab
open Spec

theorem xtFind_eq (fs : Fs) (P : XtPaths) (n : XtNode) (f : String) : xtFind fs P n f = (templateCandidates fs P n f).find? fs.exist := by
  unfold xtFind templateCandidates
  rw [findFile_eq]
  have hm : ∀ (path : String) (dirs : List String), (dirs.find? (fun d => fs.exist (fs.join d path))).map (fun d => fs.join d path) =
      (dirs.map (fun d => fs.join d path)).find? fs.exist := by
    intro path dirs
    rw [List.find?_map]
    rfl
  rw [hm]
  by_cases h : f ∈ n.config
  · have hc : n.config.contains f = true := by simpa using h
    unfold xtPrefix xtSuffix
    simp only [hc, if_true, if_pos h]
    congr 1
    simp [← List.map_eq_flatMap]
  · have hc : n.config.contains f = false := by simpa using h
    unfold xtPrefix xtSuffix
    simp only [hc, if_neg h]
    congr 1
    rw [List.map_flatMap]
    cases n.daemon <;> cases n.parent <;> simp

/-- **C135 (template).**  The template of a generated file is the first existing file in the documented order. -/
theorem C135_template (fs : Fs) (P : XtPaths) (n : XtNode) (f : String) :
    (∀ t, xtFind fs P n f = some t ↔ TemplateOf fs P n f t) ∧ (xtFind fs P n f = none ↔ ∀ t ∈ templateCandidates fs P n f, fs.exist t = false) := by
  rw [xtFind_eq]
  constructor
  · intro t
    rw [List.find?_eq_some_iff_append]
    constructor
    · rintro ⟨h1, pre, post, h2, h3⟩
      exact ⟨pre, post, h2, h1, fun q hq => by simpa using h3 q hq⟩
    · rintro ⟨pre, post, h2, h1, h3⟩
      exact ⟨h1, pre, post, h2, fun q hq => by simpa using h3 q hq⟩
  · rw [List.find?_eq_none]
    simp

theorem replStr_drop (x y : List Char) : ∀ (k : Nat) (a s : List Char), a.length = k → replStr x y k (a ++ s) = replStr x y 0 s
  | 0, [], s, _ => rfl
  | k + 1, c :: a, s, h => by
    rw [List.cons_append]
    rw [show replStr x y (k + 1) (c :: (a ++ s)) = replStr x y k (a ++ s) from rfl]
    exact replStr_drop x y k a s (by simpa using h)
  | 0, _ :: _, _, h => by simp at h
  | _ + 1, [], _, h => by simp at h

theorem strReplace_front (x f : String) (hx : x ≠ "") (hf : ¬ HasText x f) : strReplace x "" (x ++ f) = f := by
  unfold strReplace
  rw [String.toList_append]
  have hs : subStr x.toList f.toList = false := by
    rw [Bool.eq_false_iff]
    intro h
    obtain ⟨a, b, hab⟩ := (subStr_iff _ _).1 h
    apply hf
    refine ⟨String.ofList a, String.ofList b, ?_⟩
    apply String.toList_inj.1
    simp [hab]
  have hxl : x.toList ≠ [] := by
    intro h
    apply hx
    apply String.toList_inj.1
    simpa using h
  have key : replStr x.toList "".toList 0 (x.toList ++ f.toList) = f.toList := by
    cases hxx : x.toList with
    | nil => exact absurd hxx hxl
    | cons c r =>
      rw [List.cons_append]
      unfold replStr
      rw [if_pos (by simp [List.isPrefixOf_iff_prefix])]
      rw [show (c :: r).length - 1 = r.length by simp, replStr_drop _ _ _ _ _ rfl, ← hxx]
      rw [replStr_of_not hxl _ hs]
      rfl
  rw [key]
  simp

theorem xtLoop_skip (fs : Fs) (P : XtPaths) (n : XtNode) (b r : List (String × String)) (h : ∀ p ∈ b, ¬ HasText ("clab_files/" ++ n.name) p.1) :
    xtLoop fs P n (b ++ r) = xtLoop fs P n r := by
  induction b with
  | nil => rfl
  | cons p b ih =>
    rw [List.cons_append]
    rw [show xtLoop fs P n (p :: (b ++ r)) = if !subStr (xtFolder n).toList p.1.toList then xtLoop fs P n (b ++ r) else
      match xtFind fs P n (strReplace (xtFolder n ++ "/") "" p.1) with
      | some t => (⟨xtFolder n ++ "/" ++ strReplace (xtFolder n ++ "/") "" p.1, t, p.2⟩ :: (xtLoop fs P n (b ++ r)).1, (xtLoop fs P n (b ++ r)).2)
      | none => ((xtLoop fs P n (b ++ r)).1, (xtLoop fs P n (b ++ r)).2 + 1) from rfl]
    have hs : subStr (xtFolder n).toList p.1.toList = false := by
      rw [Bool.eq_false_iff]
      intro hc
      obtain ⟨x, y, hxy⟩ := (subStr_iff _ _).1 hc
      apply h p List.mem_cons_self
      refine ⟨String.ofList x, String.ofList y, ?_⟩
      apply String.toList_inj.1
      simpa [xtFolder] using hxy
    rw [hs, if_pos (by rfl)]
    exact ih (fun q hq => h q (List.mem_cons_of_mem _ hq))

/-- The file generated for a template (used in the proofs) -/
def xtOut (fs : Fs) (P : XtPaths) (n : XtNode) (p : String × String) : XtFile :=
  ⟨xtFolder n ++ "/" ++ fileName p.1, (xtFind fs P n (fileName p.1)).getD "", p.2⟩

theorem xtLoop_used (fs : Fs) (P : XtPaths) (n : XtNode) (u : List (String × String)) (hf : ∀ p ∈ u, (xtFind fs P n (fileName p.1)).isSome = true)
    (hc : ∀ p ∈ u, ¬ HasText ("clab_files/" ++ n.name ++ "/") (fileName p.1)) :
    xtLoop fs P n (u.map (fun p => (xtFolder n ++ "/" ++ fileName p.1, p.2))) = (u.map (xtOut fs P n), 0) := by
  induction u with
  | nil => rfl
  | cons p u ih =>
    have ih := ih (fun q hq => hf q (List.mem_cons_of_mem _ hq)) (fun q hq => hc q (List.mem_cons_of_mem _ hq))
    rw [List.map_cons, List.map_cons]
    unfold xtLoop
    have hs : subStr (xtFolder n).toList (xtFolder n ++ "/" ++ fileName p.1).toList = true := by
      rw [subStr_iff]
      exact ⟨[], "/".toList ++ (fileName p.1).toList, by simp⟩
    have hr : strReplace (xtFolder n ++ "/") "" (xtFolder n ++ "/" ++ fileName p.1) = fileName p.1 := by
      apply strReplace_front
      · intro h
        have := congrArg String.length h
        simp [xtFolder] at this
      · exact hc p List.mem_cons_self
    simp only [hs, hr]
    obtain ⟨t, ht⟩ := Option.isSome_iff_exists.1 (hf p List.mem_cons_self)
    rw [ht, ih]
    simp [xtOut, ht]

/-- **C135 (files).**  Existing mappings of a container are kept.  For every requested file that is not an existing mapping and has a template, one file is
generated from its template in the directory of the node, and mapped to the requested target; nothing else is generated, and files without templates are reported. -/
theorem C135_files (fs : Fs) (P : XtPaths) (n : XtNode) (templates binds : List String) (t b : List (String × String)) (h0 : templates ≠ [])
    (ht : ParsedLines templates t) (hb : ParsedLines binds b) (htn : (t.map (fun p => fileName p.1)).Nodup) (hbn : (b.map (·.1)).Nodup) (hnc : NoColon n.name)
    (hbf : ∀ p ∈ b, ¬ HasText ("clab_files/" ++ n.name) p.1) (htf : ∀ p ∈ t, ¬ HasText ("clab_files/" ++ n.name ++ "/") (fileName p.1)) :
    ∃ files errors, xtRun fs P n templates binds = some (binds ++ files.map (fun x => x.out ++ ":" ++ x.target), files, errors) ∧
      (∀ x, x ∈ files ↔ ∃ p ∈ t, fileName p.1 ∉ b.map (·.1) ∧ x.out = "clab_files/" ++ n.name ++ "/" ++ fileName p.1 ∧ x.target = p.2 ∧
        TemplateOf fs P n (fileName p.1) x.template) ∧
      (files.map (·.out)).Nodup ∧
      errors = (t.filter (fun p : String × String => decide (fileName p.1 ∉ b.map Prod.fst ∧ ∀ c ∈ templateCandidates fs P n (fileName p.1), fs.exist c = false))).length := by
  have hlook : ∀ k, (b.lookup k).isNone = true ↔ k ∉ b.map (·.1) := by
    intro k
    rw [Option.isNone_iff_eq_none, List.lookup_eq_none_iff]
    simp only [List.mem_map, ne_eq, bne_iff_ne]
    constructor
    · rintro h ⟨p, hp, rfl⟩
      exact h p hp rfl
    · intro h p hp he
      exact h ⟨p, hp, he.symm⟩
  have hbf' : ∀ p ∈ b, ¬ StartsWith (xtFolder n ++ "/") p.1 := by
    rintro p hp ⟨r, hr⟩
    apply hbf p hp
    refine ⟨"", "/" ++ r, ?_⟩
    rw [hr]
    apply String.toList_inj.1
    simp [xtFolder]
  have htf' : ∀ p ∈ t, ¬ StartsWith (xtFolder n ++ "/") (fileName p.1) := by
    rintro p hp ⟨r, hr⟩
    apply htf p hp
    refine ⟨"", r, ?_⟩
    rw [hr]
    apply String.toList_inj.1
    simp [xtFolder]
  have hx := C91_extra (fun f => (xtFind fs P n f).isSome) (xtFolder n) templates binds t b h0 ht hb htn hbn hbf' htf'
  generalize hu : t.filter (fun p => (b.lookup (fileName p.1)).isNone && (xtFind fs P n (fileName p.1)).isSome) = u at hx
  have humem : ∀ p, p ∈ u ↔ p ∈ t ∧ fileName p.1 ∉ b.map (·.1) ∧ (xtFind fs P n (fileName p.1)).isSome = true := by
    intro p
    rw [← hu, List.mem_filter, Bool.and_eq_true, hlook]
  have hun : (u.map (fun p => fileName p.1)).Nodup := by
    rw [← hu]
    exact htn.sublist (List.filter_sublist.map _)
  have hpinj : ∀ a c : String, xtFolder n ++ "/" ++ a = xtFolder n ++ "/" ++ c → a = c := by
    intro a c h
    have := congrArg String.toList h
    simp only [String.toList_append, List.append_assoc] at this
    exact String.toList_inj.1 (by simpa using this)
  have houtn : ((u.map (xtOut fs P n)).map (·.out)).Nodup := by
    rw [List.map_map, List.Nodup, List.pairwise_map]
    rw [List.Nodup, List.pairwise_map] at hun
    exact hun.imp (fun h he => h (hpinj _ _ he))
  refine ⟨u.map (xtOut fs P n), (t.filter (fun p => (b.lookup (fileName p.1)).isNone && !(xtFind fs P n (fileName p.1)).isSome)).length, ?_, ?_, houtn, ?_⟩
  · unfold xtRun
    rw [hx]
    simp only
    have hlines : u.map (fun p => xtFolder n ++ "/" ++ fileName p.1 ++ ":" ++ p.2) = (u.map (xtOut fs P n)).map (fun x => x.out ++ ":" ++ x.target) := by
      rw [List.map_map]
      rfl
    rw [hlines]
    have hnocol : ∀ p ∈ u, NoColon (xtFolder n ++ "/" ++ fileName p.1) := by
      intro p hp
      have hpt := ((humem p).1 hp).1
      obtain ⟨k, hk, hpk⟩ := List.mem_iff_getElem.1 hpt
      have hk' : NoColon p.1 := by
        have := (List.forall₂_iff_get.1 ht).2 k (by rw [ht.length_eq]; exact hk) hk
        have := this.2
        simpa [hpk] using this
      unfold NoColon at hk' hnc ⊢
      simp only [xtFolder, String.toList_append, List.mem_append, fileName, String.toList_ofList, List.mem_map, not_or, not_exists, not_and]
      refine ⟨⟨⟨by decide, hnc⟩, by decide⟩, ?_⟩
      intro c hc he
      by_cases hat : c = '@'
      · rw [if_pos hat] at he
        exact absurd he (by decide)
      · rw [if_neg hat] at he
        exact hk' (he ▸ hc)
    have hparsed : ParsedLines (binds ++ (u.map (xtOut fs P n)).map (fun x => x.out ++ ":" ++ x.target))
        (b ++ u.map (fun p => (xtFolder n ++ "/" ++ fileName p.1, p.2))) := by
      apply List.rel_append hb
      rw [List.forall₂_map_left_iff, List.forall₂_map_left_iff, List.forall₂_map_right_iff, List.forall₂_same]
      intro p hp
      exact ⟨rfl, hnocol p hp⟩
    have hnd : ((b ++ u.map (fun p => (xtFolder n ++ "/" ++ fileName p.1, p.2))).map (·.1)).Nodup := by
      rw [List.map_append, List.nodup_append]
      refine ⟨hbn, ?_, ?_⟩
      · rw [List.map_map] at houtn ⊢
        exact houtn
      · intro a ha c hc he
        obtain ⟨p, hp, rfl⟩ := List.mem_map.1 ha
        rw [List.map_map] at hc
        obtain ⟨q, hq, rfl⟩ := List.mem_map.1 hc
        exact hbf' p hp ⟨fileName q.1, he⟩
    unfold xtCreate
    by_cases hemp : (binds ++ (u.map (xtOut fs P n)).map (fun x => x.out ++ ":" ++ x.target)).isEmpty = true
    · rw [if_pos hemp]
      have : u = [] := by simpa using (List.append_eq_nil_iff.1 (List.isEmpty_iff.1 hemp)).2
      subst this
      simp
    · rw [if_neg hemp, fmDict_parsed _ _ hparsed hnd]
      simp only [Option.map_some]
      rw [xtLoop_skip _ _ _ _ _ hbf, xtLoop_used _ _ _ _ (fun p hp => ((humem p).1 hp).2.2) (fun p hp => htf p ((humem p).1 hp).1)]
      rfl
  · intro x
    rw [List.mem_map]
    constructor
    · rintro ⟨p, hp, rfl⟩
      obtain ⟨h1, h2, h3⟩ := (humem p).1 hp
      refine ⟨p, h1, h2, rfl, rfl, ?_⟩
      obtain ⟨y, hy⟩ := Option.isSome_iff_exists.1 h3
      apply ((C135_template fs P n _).1 _).1
      simp [xtOut, hy]
    · rintro ⟨p, h1, h2, h3, h4, h5⟩
      have hy := ((C135_template fs P n _).1 _).2 h5
      refine ⟨p, (humem p).2 ⟨h1, h2, by simp [hy]⟩, ?_⟩
      cases x
      simp only at h3 h4 hy
      simp [xtOut, hy, h3, h4, xtFolder]
  · congr 1
    apply List.filter_congr
    intro p _
    rw [Bool.eq_iff_iff, Bool.and_eq_true, hlook, decide_eq_true_iff, ← (C135_template fs P n _).2]
    simp

/-- **C135 (no templates).**  Mappings of nodes without templates are not changed, and nothing is generated when they do not point into the directory of the node. -/
theorem C135_plain (fs : Fs) (P : XtPaths) (n : XtNode) (binds : List String) (b : List (String × String)) (hb : ParsedLines binds b) (hbn : (b.map (·.1)).Nodup)
    (hbf : ∀ p ∈ b, ¬ HasText ("clab_files/" ++ n.name) p.1) : xtRun fs P n [] binds = some (binds, [], 0) := by
  unfold xtRun
  rw [C91_no_templates]
  simp only
  unfold xtCreate
  by_cases h : binds.isEmpty = true
  · rw [if_pos h]; rfl
  · rw [if_neg h, fmDict_parsed _ _ hb hbn]
    have := xtLoop_skip fs P n b [] hbf
    rw [List.append_nil] at this
    simp only [Option.map_some, this]
    rfl

/-- A file system with two templates (used in examples) -/
def xtSampleFs : Fs where
  resolve := id
  isDir := fun _ => true
  exist := fun f => ["/home/frr/daemons.j2", "/pkg/clab/frr/daemons.j2", "/pkg/clab/frr/hosts.j2", "/custom/acl/frr.j2"].contains f
  join := fun a b => a ++ "/" ++ b
  home := id
  dirname := id
  moddir := "/pkg"

/-- A node (used in examples) -/
def xtSampleNode : XtNode := ⟨"r1", "frr", ["acl"], false, none⟩

/-- Directories (used in examples) -/
def xtSamplePaths : XtPaths := ⟨["/custom"], ["/home"], "/pkg/clab", "/pkg/daemons"⟩

example : xtRun xtSampleFs xtSamplePaths xtSampleNode ["daemons:/etc/frr/daemons", "hosts:/etc/hosts", "acl:/acl", "nope:/x"] ["my.cfg:/etc/my.cfg"] =
    some (["my.cfg:/etc/my.cfg", "clab_files/r1/daemons:/etc/frr/daemons", "clab_files/r1/hosts:/etc/hosts", "clab_files/r1/acl:/acl"],
      [⟨"clab_files/r1/daemons", "/home/frr/daemons.j2", "/etc/frr/daemons"⟩, ⟨"clab_files/r1/hosts", "/pkg/clab/frr/hosts.j2", "/etc/hosts"⟩,
       ⟨"clab_files/r1/acl", "/custom/acl/frr.j2", "/acl"⟩], 1) := by decide +kernel

/-- C135 defect: a user mapping of a file of another node whose name starts with the name of this node is taken for a generated file and reported as an error. -/
theorem C135_other_node : ∃ n : XtNode, n.name = "r1" ∧
    xtRun xtSampleFs xtSamplePaths n [] ["clab_files/r10/hosts:/etc/hosts"] = some (["clab_files/r10/hosts:/etc/hosts"], [], 1) :=
  ⟨xtSampleNode, rfl, by decide +kernel⟩

/-! ### Startup configurations -/

theorem tbFind_eq (n : String) (files : List String) : tbFind n files = files.find? (fun f => f == n || (n ++ ".").toList.isPrefixOf f.toList) := by
  induction files with
  | nil => rfl
  | cons f r ih =>
    unfold tbFind
    rw [List.find?_cons, ih]
    by_cases h : f = n
    · simp [h]
    · have hb : (f == n) = false := by simpa using h
      rw [if_neg h, hb, Bool.false_or]
      cases (n ++ ".").toList.isPrefixOf f.toList <;> simp

theorem configFile_iff (n f : String) : (f == n || (n ++ ".").toList.isPrefixOf f.toList) = true ↔ ConfigFileOf n f := by
  rw [Bool.or_eq_true, beq_iff_eq, List.isPrefixOf_iff_prefix]
  unfold ConfigFileOf StartsWith
  apply or_congr Iff.rfl
  constructor
  · rintro ⟨r, hr⟩
    exact ⟨String.ofList r, String.toList_inj.1 (by simp [← hr])⟩
  · rintro ⟨r, rfl⟩
    exact ⟨r.toList, by simp⟩

/-- **C135 (startup configuration).**  In the archive of a lab, the startup configuration of a node is the first collected file of that node; nothing else changes. -/
theorem C135_startup (configs : String) (files : List String) (nodes out : List (String × List (String × Val))) (h : tbAdjust configs files nodes = some out) :
    out.map (·.1) = nodes.map (·.1) ∧
    ∀ (i : Nat) (p q : String × List (String × Val)), nodes[i]? = some p → out[i]? = some q →
      (∀ k, k ≠ "startup-config" → q.2.lookup k = p.2.lookup k) ∧
      (∀ pre f post, files = pre ++ f :: post → ConfigFileOf p.1 f → (∀ g ∈ pre, ¬ ConfigFileOf p.1 g) → q.2.lookup "startup-config" = some (.str (configs ++ "/" ++ f))) ∧
      ((∀ f ∈ files, ¬ ConfigFileOf p.1 f) → q = p) := by
  unfold tbAdjust at h
  split at h
  · cases h
  · injection h with h
    subst h
    have hname : ∀ p, (tbNode configs files p).1 = p.1 := by
      intro p
      unfold tbNode
      cases tbFind p.1 files with
      | none => rfl
      | some f => simp only; split <;> rfl
    have hne : ∀ f, (configs ++ "/" ++ f).isEmpty = false := by
      intro f
      rw [Bool.eq_false_iff]
      intro he
      have := String.isEmpty_iff.1 he
      have := congrArg String.length this
      simp at this
    refine ⟨by rw [List.map_map]; exact List.map_congr_left (fun p _ => hname p), ?_⟩
    intro i p q hp hq
    rw [List.getElem?_map, hp] at hq
    injection hq with hq
    subst hq
    refine ⟨?_, ?_, ?_⟩
    · intro k hk
      unfold tbNode
      cases tbFind p.1 files with
      | none => rfl
      | some f =>
        simp only [hne, Bool.false_eq_true, if_false]
        rw [lookup_setKey, if_neg hk]
    · intro pre f post hf hc hpre
      have : tbFind p.1 files = some f := by
        rw [tbFind_eq, List.find?_eq_some_iff_append]
        refine ⟨(configFile_iff _ _).2 hc, pre, post, hf, ?_⟩
        intro g hg
        rw [Bool.not_eq_true', Bool.eq_false_iff]
        exact fun hh => hpre g hg ((configFile_iff _ _).1 hh)
      unfold tbNode
      rw [this]
      simp only [hne, Bool.false_eq_true, if_false]
      rw [lookup_setKey, if_pos rfl]
    · intro hno
      have : tbFind p.1 files = none := by
        rw [tbFind_eq, List.find?_eq_none]
        intro f hf hh
        exact hno f hf ((configFile_iff _ _).1 hh)
      unfold tbNode
      rw [this]

/-- **C135 (own file).**  A configuration file never belongs to two nodes (node names have no dots). -/
theorem C135_own_file (a b f : String) (ha : '.' ∉ a.toList) (hb : '.' ∉ b.toList) (h1 : ConfigFileOf a f) (h2 : ConfigFileOf b f) : a = b := by
  have aux : ∀ n, ConfigFileOf n f → ∃ x, f.toList = n.toList ++ x ∧ (x = [] ∨ ∃ r, x = '.' :: r) := by
    rintro n (rfl | ⟨r, rfl⟩)
    · exact ⟨[], by simp, Or.inl rfl⟩
    · exact ⟨'.' :: r.toList, by simp, Or.inr ⟨_, rfl⟩⟩
  obtain ⟨x, hx, hx'⟩ := aux a h1
  obtain ⟨y, hy, hy'⟩ := aux b h2
  have := dot_prefix_inj a.toList b.toList ha hb x y hx' hy' (hx ▸ hy)
  exact String.toList_inj.1 (by simpa using this)

/-- **C135 (archive).**  An archive is not created exactly when no node gets a new startup configuration. -/
theorem C135_archive (configs : String) (files : List String) (nodes : List (String × List (String × Val))) :
    tbAdjust configs files nodes = none ↔
      ∀ p ∈ nodes, ∀ f, tbFind p.1 files = some f → setKey p.2 "startup-config" (.str (configs ++ "/" ++ f)) = p.2 := by
  have hne : ∀ f, (configs ++ "/" ++ f).isEmpty = false := by
    intro f
    rw [Bool.eq_false_iff]
    intro he
    have := String.isEmpty_iff.1 he
    have := congrArg String.length this
    simp at this
  have hmap : nodes.map (tbNode configs files) = nodes ↔ ∀ p ∈ nodes, tbNode configs files p = p := by
    constructor
    · intro h p hp
      have h' : nodes.map (tbNode configs files) = nodes.map id := by rw [h, List.map_id]
      exact List.map_inj_left.1 h' p hp
    · intro h
      conv_rhs => rw [← List.map_id nodes]
      exact List.map_congr_left h
  unfold tbAdjust
  by_cases h : nodes.map (tbNode configs files) = nodes
  · rw [if_pos h]
    refine ⟨fun _ => ?_, fun _ => rfl⟩
    intro p hp f hf
    have := hmap.1 h p hp
    unfold tbNode at this
    rw [hf] at this
    simp only [hne, Bool.false_eq_true, if_false] at this
    exact congrArg Prod.snd this
  · rw [if_neg h]
    refine ⟨fun hh => (nomatch hh), fun hh => absurd (hmap.2 ?_) h⟩
    intro p hp
    unfold tbNode
    cases hf : tbFind p.1 files with
    | none => rfl
    | some f =>
      simp only [hne, Bool.false_eq_true, if_false]
      rw [hh p hp f hf]

example : tbAdjust "config" ["r10.cfg", "r1.cfg", "r1.old"] [("r1", [("kind", .str "ceos")]), ("r2", [])] =
    some [("r1", [("kind", .str "ceos"), ("startup-config", .str "config/r1.cfg")]), ("r2", [])] := by decide +kernel

end Netlab
