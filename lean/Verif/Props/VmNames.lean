import Verif.Model.VmNames
import Verif.Props.Nodeset
/-!
# C151: virtual machines and containers have unique names
-/

namespace Netlab

theorem split_at_sep {sep : Char} {a b c d : List Char} (ha : sep ∉ a) (hb : sep ∉ b) (h : a ++ sep :: c = b ++ sep :: d) :
    a = b ∧ c = d := by
  induction a generalizing b with
  | nil =>
    cases b with
    | nil => simpa using h
    | cons x y =>
      simp only [List.nil_append, List.cons_append, List.cons.injEq] at h
      exact absurd (h.1 ▸ List.mem_cons_self) hb
  | cons x y ih =>
    cases b with
    | nil =>
      simp only [List.nil_append, List.cons_append, List.cons.injEq] at h
      exact absurd (h.1 ▸ List.mem_cons_self) ha
    | cons z w =>
      simp only [List.cons_append, List.cons.injEq] at h
      simp only [List.mem_cons, not_or] at ha hb
      obtain ⟨h1, h2⟩ := ih ha.2 hb.2 h.2
      exact ⟨by rw [h.1, h1], h2⟩

/-- **C151**: virtual machines in a lab have different names. -/
theorem C151_vm_unique (lab n m : List Char) : vmName lab n = vmName lab m ↔ n = m := by
  unfold vmName
  constructor
  · intro h
    have := List.append_cancel_left h
    simpa using this
  · rintro rfl; rfl

/-- **C151**: virtual machines in different labs have different names when the names of labs have no dots and underscores. -/
theorem C151_vm_labs (l k n m : List Char) (hl : '.' ∉ l) (hk : '.' ∉ k) (hl' : '_' ∉ l) (hk' : '_' ∉ k) :
    vmName l n = vmName k m ↔ l = k ∧ n = m := by
  unfold vmName
  rw [splitOnChar_one '.' l hl, splitOnChar_one '.' k hk]
  constructor
  · exact split_at_sep hl' hk'
  · rintro ⟨rfl, rfl⟩; rfl

/-- **C151** (defect): the name of a node in one lab and the name of another lab can be chosen in a way that a virtual machine in one
lab has the same name as a virtual machine in the other lab. -/
theorem C151_vm_clash (a b c : List Char) (ha : '.' ∉ a) (hb : '.' ∉ b) : vmName a (b ++ '_' :: c) = vmName (a ++ '_' :: b) c := by
  unfold vmName
  have : '.' ∉ a ++ '_' :: b := by
    simp only [List.mem_append, List.mem_cons, not_or]
    exact ⟨ha, by decide, hb⟩
  rw [splitOnChar_one '.' a ha, splitOnChar_one '.' _ this]
  simp

/-- **C151** (defect): virtual machines in labs that differ only after the first dot in their names have the same names. -/
theorem C151_vm_dot (a b c n : List Char) (ha : '.' ∉ a) : vmName (a ++ '.' :: b) n = vmName (a ++ '.' :: c) n := by
  unfold vmName
  rw [splitOnChar_append '.' a b ha, splitOnChar_append '.' a c ha]
  rfl

/-- **C151**: containers in a lab have different names; containers in different labs have different names when there is a prefix and the
names of labs have no dashes. -/
theorem C151_containers (pfx l k n m : List Char) :
    (containerName pfx l n = containerName pfx l m ↔ n = m) ∧
    (pfx ≠ [] → '-' ∉ l → '-' ∉ k → (containerName pfx l n = containerName pfx k m ↔ l = k ∧ n = m)) ∧
    (pfx = [] → containerName pfx l n = n) := by
  unfold containerName
  cases pfx with
  | nil => simp
  | cons c r =>
    refine ⟨?_, ?_, by simp⟩
    · simp
    · intro _ hl hk
      simp only [List.isEmpty_cons, Bool.false_eq_true, if_false]
      constructor
      · intro h
        have := List.append_cancel_left h
        simp only [List.cons.injEq, true_and] at this
        exact split_at_sep hl hk this
      · rintro ⟨rfl, rfl⟩; rfl

/-- **C151**: a Vagrant box with a version is split into the box and the version if there's a dot in any of them; a box without a version
is not changed. -/
theorem C151_box (box ver : List Char) (hb : ':' ∉ box) (hv : ':' ∉ ver) :
    boxImage box = (box, none) ∧ ('.' ∈ box ∨ '.' ∈ ver → boxImage (box ++ ':' :: ver) = (box, some ver)) := by
  unfold boxImage
  constructor
  · split
    · rw [splitOnChar_one ':' box hb]; rfl
    · rfl
  · intro h
    have : (box ++ ':' :: ver).contains '.' = true := by
      simp only [List.contains_iff_mem, List.mem_append, List.mem_cons]
      rcases h with h | h
      · exact .inl h
      · exact .inr (.inr h)
    rw [if_pos this, splitOnChar_append ':' box ver hb, splitOnChar_one ':' ver hv]
    rfl

/-- **C151** (defect): the version is a part of the name of the Vagrant box when there's no dot in the box and its version. -/
theorem C151_box_version (box ver : List Char) (h1 : '.' ∉ box) (h2 : '.' ∉ ver) :
    boxImage (box ++ ':' :: ver) = (box ++ ':' :: ver, none) := by
  unfold boxImage
  rw [if_neg]
  simp only [List.contains_iff_mem, List.mem_append, List.mem_cons, not_or]
  exact ⟨h1, by decide, h2⟩

/-- **C151**: links with virtual interfaces are not in provider configuration files, all other links are (in the same order). -/
theorem C151_links {α : Type} (virtual : List String) (links : List (String × α)) :
    (outputLinks virtual links).Sublist links ∧
    ∀ l, l ∈ outputLinks virtual links ↔ l ∈ links ∧ l.1 ∉ virtual := by
  unfold outputLinks
  exact ⟨List.filter_sublist, fun l => by simp⟩

/-- **C151**: the identifier of an external lab is what the user specified; the default is never empty, and it depends on the name of the
lab. -/
theorem C151_external (id : Option String) (l k : String) :
    externalLab id l ≠ "" ∧ (∀ i, id = some i → i ≠ "" → externalLab id l = i) ∧
    (id = none ∨ id = some "" → (externalLab id l = externalLab id k ↔ l = k)) := by
  have hne : ∀ x : String, "external_" ++ x ≠ "" := by
    intro x h
    have := congrArg String.length h
    rw [String.length_append] at this
    have h9 : ("external_" : String).length = 9 := by decide
    simp [h9] at this
  have hinj : "external_" ++ l = "external_" ++ k ↔ l = k := by
    constructor
    · intro h
      have := congrArg String.toList h
      rw [String.toList_append, String.toList_append] at this
      exact String.toList_inj.mp (List.append_cancel_left this)
    · rintro rfl; rfl
  refine ⟨?_, ?_, ?_⟩
  · unfold externalLab
    cases id with
    | none => exact hne l
    | some i =>
      dsimp only
      split
      · exact hne l
      · assumption
  · intro i hi h
    subst hi
    simp [externalLab, h]
  · rintro (rfl | rfl)
    · simpa [externalLab] using hinj
    · simpa [externalLab] using hinj

example : vmName "lab.1".toList "r1".toList = "lab_r1".toList ∧ containerName "clab".toList "x".toList "r1".toList = "clab-x-r1".toList ∧
    boxImage "arista/veos:4.28".toList = ("arista/veos".toList, some "4.28".toList) ∧
    boxImage "arista/veos:4".toList = ("arista/veos:4".toList, none) ∧
    outputLinks ["loopback", "tunnel"] [("p2p", 1), ("loopback", 2), ("lan", 3)] = [("p2p", 1), ("lan", 3)] := by decide +kernel

end Netlab
