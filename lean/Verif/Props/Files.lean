import Verif.Model.Files
import Verif.Spec.Files
/-!
# C44: file search order
-/

namespace Netlab
open Spec

theorem findFile_eq (fs : Fs) (path : String) (dirs : List String) :
    findFile fs path dirs = (dirs.find? (fun d => fs.exist (fs.join d path))).map (fun d => fs.join d path) := by
  induction dirs with
  | nil => rfl
  | cons d rest ih =>
    unfold findFile
    by_cases h : fs.exist (fs.join d path) = true
    · simp [h]
    · simp only [Bool.not_eq_true] at h
      simp [h, ih]

/-- **C44 (first match).**  Searching for a file returns the file in the first directory containing it,
and fails iff no directory contains it. -/
theorem C44_first (fs : Fs) (path : String) (dirs : List String) :
    (∀ r, findFile fs path dirs = some r ↔ ∃ d, FirstWith fs path dirs d ∧ r = fs.join d path) ∧
    (findFile fs path dirs = none ↔ ∀ d ∈ dirs, fs.exist (fs.join d path) = false) := by
  rw [findFile_eq]
  constructor
  · intro r
    rw [Option.map_eq_some_iff]
    constructor
    · rintro ⟨d, hd, rfl⟩
      rw [List.find?_eq_some_iff_append] at hd
      obtain ⟨h1, pre, post, h2, h3⟩ := hd
      exact ⟨d, ⟨pre, post, h2, h1, fun q hq => by simpa using h3 q hq⟩, rfl⟩
    · rintro ⟨d, ⟨pre, post, h2, h1, h3⟩, rfl⟩
      refine ⟨d, ?_, rfl⟩
      rw [List.find?_eq_some_iff_append]
      exact ⟨h1, pre, post, h2, fun q hq => by simpa using h3 q hq⟩
  · rw [Option.map_eq_none_iff, List.find?_eq_none]
    simp

theorem absSearchPath_eq (fs : Fs) (topo : Option String) (curdir : String) (skip : Bool)
    (entries acc out : List String) (h : absSearchPath fs topo curdir skip entries acc = some out) :
    ∃ ext, out = acc ++ ext ∧ ext.Sublist (dirsOf fs topo curdir skip entries) ∧
      (acc.Nodup → out.Nodup) ∧
      (∀ d, d ∈ out ↔ d ∈ acc ∨ d ∈ dirsOf fs topo curdir skip entries) ∧
      (∀ f : String → Bool, (∀ d ∈ acc, f d = false) →
        ext.find? f = (dirsOf fs topo curdir skip entries).find? f) := by
  induction entries generalizing acc out with
  | nil =>
    simp only [absSearchPath, Option.some.injEq] at h
    subst h
    exact ⟨[], by simp, by simp [dirsOf], id, by simp [dirsOf], by simp [dirsOf]⟩
  | cons e rest ih =>
    unfold absSearchPath at h
    have hd : dirsOf fs topo curdir skip (e :: rest) =
        dirsOf fs topo curdir skip [e] ++ dirsOf fs topo curdir skip rest := by
      unfold dirsOf
      rw [← List.filterMap_append]
      rfl
    rw [hd]
    split at h
    · cases h
    · rename_i he
      have : dirsOf fs topo curdir skip [e] = [] := by simp [dirsOf, he]
      rw [this, List.nil_append]
      exact ih acc out h
    · rename_i p he
      simp only at h
      by_cases hs : skip = true ∧ fs.isDir p = false
      · have h1 : dirsOf fs topo curdir skip [e] = [] := by simp [dirsOf, he, hs]
        rw [h1, List.nil_append]
        have hc : ¬ ((fs.isDir p || !skip) = true) := by simp [hs.1, hs.2]
        rw [if_neg hc, ite_self] at h
        exact ih acc out h
      · have h1 : dirsOf fs topo curdir skip [e] = [fs.resolve p] := by
          simp only [dirsOf, List.filterMap_cons, he, if_neg hs, List.filterMap_nil]
        rw [h1]
        have hc : (fs.isDir p || !skip) = true := by
          cases hx : fs.isDir p <;> cases hy : skip <;> simp_all
        by_cases hm : fs.resolve p ∈ acc
        · rw [if_pos (by simpa using hm)] at h
          obtain ⟨ext, e1, e2, e3, e4, e5⟩ := ih acc out h
          refine ⟨ext, e1, e2.trans (by simp), e3, ?_, ?_⟩
          · intro d
            rw [e4]
            simp only [List.singleton_append, List.mem_cons]
            constructor
            · rintro (a | a)
              · exact Or.inl a
              · exact Or.inr (Or.inr a)
            · rintro (a | rfl | a)
              · exact Or.inl a
              · exact Or.inl hm
              · exact Or.inr a
          · intro f hf
            rw [e5 f hf]
            simp [hf _ hm]
        · rw [if_neg (by simpa using hm), if_pos hc] at h
          obtain ⟨ext, e1, e2, e3, e4, e5⟩ := ih (acc ++ [fs.resolve p]) out h
          refine ⟨fs.resolve p :: ext, by simp [e1], by simpa using e2, ?_, ?_, ?_⟩
          · intro hn
            apply e3
            rw [List.nodup_append]
            refine ⟨hn, by simp, ?_⟩
            intro a ha b hb eq
            simp only [List.mem_singleton] at hb
            subst hb
            subst eq
            exact hm ha
          · intro d
            rw [e4]
            simp only [List.mem_append, List.not_mem_nil, or_false, List.singleton_append, List.mem_cons, or_assoc]
          · intro f hf
            by_cases hfp : f (fs.resolve p) = true
            · simp [hfp]
            · have hfp : f (fs.resolve p) = false := by simpa using hfp
              simp only [List.singleton_append, List.find?_cons, hfp]
              apply e5
              intro d hd
              rcases List.mem_append.1 hd with h' | h'
              · exact hf d h'
              · simp only [List.mem_singleton] at h'
                rw [h']
                exact hfp

/-- **C44 (search path).**  The absolute search path contains every directory of the search path exactly once,
in the order of the entries; missing directories are skipped on request. -/
theorem C44_search_path (fs : Fs) (topo : Option String) (curdir : String) (skip : Bool)
    (entries out : List String) (h : absSearchPath fs topo curdir skip entries [] = some out) :
    out.Nodup ∧ out.Sublist (dirsOf fs topo curdir skip entries) ∧
    ∀ d, d ∈ out ↔ d ∈ dirsOf fs topo curdir skip entries := by
  obtain ⟨ext, e1, e2, e3, e4, _⟩ := absSearchPath_eq fs topo curdir skip entries [] out h
  refine ⟨e3 List.nodup_nil, ?_, fun d => by simpa using e4 d⟩
  rw [e1]
  simpa using e2

/-- **C44 (first appearance).**  Removing repeated directories from the search path never changes the file
found: it is the file in the directory of the first matching entry. -/
theorem C44_find_in_search_path (fs : Fs) (topo : Option String) (curdir : String) (skip : Bool)
    (entries out : List String) (h : absSearchPath fs topo curdir skip entries [] = some out)
    (path : String) : findFile fs path out = findFile fs path (dirsOf fs topo curdir skip entries) := by
  obtain ⟨ext, e1, _, _, _, e5⟩ := absSearchPath_eq fs topo curdir skip entries [] out h
  rw [findFile_eq, findFile_eq, ← e5 _ (by simp), e1]
  simp

/-- **C44 (entries).**  `package:` entries are relative to the package, `topology:` entries to the directory of the
lab topology and are skipped without one, entries with other names are relative to the current directory; only an
empty entry raises an exception. -/
theorem C44_entries (fs : Fs) (topo : Option String) (curdir : String) (rest : String) :
    (subStr "topology:".toList rest.toList = false → subStr "package:".toList rest.toList = false →
      entryPath fs topo curdir rest =
        if rest = "" then .crash
        else if rest.toList.head? = some '~' then .path (fs.home rest)
        else if rest.toList.head? = some '.' ∨ rest.toList.head? = some '/' then .path rest
        else .path (fs.join curdir rest)) ∧
    (subStr "package:".toList rest.toList = true →
      entryPath fs topo curdir rest = .path (fs.join fs.moddir (strReplace "package:" "" rest))) ∧
    (subStr "package:".toList rest.toList = false → subStr "topology:".toList rest.toList = true →
      topo = none → entryPath fs topo curdir rest = .skip) := by
  refine ⟨?_, ?_, ?_⟩
  · intro h1 h2
    unfold entryPath
    rw [if_neg (by rw [h2]; decide), if_neg (by rw [h1]; decide)]
    cases he : rest.toList with
    | nil =>
      have : rest = "" := by
        have := congrArg String.ofList he
        simpa using this
      simp [this]
    | cons c r =>
      have : rest ≠ "" := by
        intro e
        rw [e] at he
        simp at he
      rw [if_neg this]
      simp only [List.head?_cons, Option.some.injEq, beq_iff_eq, Bool.or_eq_true]
  · intro h
    unfold entryPath
    rw [if_pos h]
    rfl
  · intro h1 h2 h3
    unfold entryPath
    rw [if_neg (by rw [h1]; decide), if_pos h2, h3]

/-- **C44 (default order).**  The usual search path is the current directory, the user directory, the system
directory and the package, with the same subdirectory in all of them unless the package uses another one. -/
theorem C44_default_order (fs : Fs) (cur user sys c p : String) (hc : c ≠ "") (hp : p ≠ "") :
    getSearchPath fs cur user sys none none = [cur, user, sys, fs.moddir] ∧
    getSearchPath fs cur user sys (some c) none =
      [fs.join cur c, fs.join user c, fs.join sys c, fs.join fs.moddir c] ∧
    getSearchPath fs cur user sys (some c) (some p) =
      [fs.join cur c, fs.join user c, fs.join sys c, fs.join fs.moddir p] := by
  simp [getSearchPath, hc, hp]

/-- A small file system used in the examples -/
def fsSample : Fs where
  resolve := fun p => p
  isDir := fun p => p != "/x/none"
  exist := fun p => p == "/pkg/lib/f" || p == "/x/b/f"
  join := fun a b => a ++ "/" ++ b
  home := fun p => "/home" ++ p
  dirname := fun p => if p == "package:cicd/t.yml" then "package:cicd" else "/x"
  moddir := "/pkg"

example : absSearchPath fsSample (some "/x/t.yml") "/x" true
    ["topology:a", "b", "none", "b", "package:lib"] [] = some ["/x/a", "/x/b", "/pkg/lib"] := by decide +kernel
example : findFile fsSample "f" ["/x/a", "/x/b", "/pkg/lib"] = some "/x/b/f" := by decide +kernel

/-- **C44 (defect).**  With a lab topology from the package, a `topology:` entry loses its own path:
`topology:templates` stands for the directory of the topology itself. -/
theorem C44_package_topology_path_lost :
    entryPath fsSample (some "package:cicd/t.yml") "." "topology:templates" = .path "/pkg/cicd" ∧
    entryPath fsSample (some "/x/t.yml") "." "topology:templates" = .path "/x/templates" := by
  decide +kernel

end Netlab
