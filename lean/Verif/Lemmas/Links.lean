import Verif.Spec.Links
import Mathlib.Data.List.Nodup
/-!
# Lemmas on node interfaces
-/

namespace Netlab
open Spec

/-- Interface without the neighbor list -/
def NodeIf.strip (i : NodeIf) : NodeIf := { i with nbrs := [] }

theorem newInterface_strip (dev : String → NodeDev) (all all' : List NodeIf)
    (h : all.map NodeIf.strip = all'.map NodeIf.strip) (l : Int) (n : String) (r : IfReq) :
    newInterface dev all l n r = newInterface dev all' l n r := by
  have key : ∀ d (ifs ifs' : List NodeIf), ifs.map NodeIf.strip = ifs'.map NodeIf.strip →
      ifIdent d ifs r = ifIdent d ifs' r := by
    intro d ifs ifs' h
    have hu : ∀ t, usedIndices ifs t = usedIndices ifs' t := by
      intro t
      have : ∀ ifs : List NodeIf, usedIndices ifs t = usedIndices (ifs.map NodeIf.strip) t := by
        intro ifs
        unfold usedIndices
        rw [List.filter_map, List.map_map]
        rfl
      rw [this ifs, this ifs', h]
    have hl : ifs.length = ifs'.length := by
      have := congrArg List.length h
      simpa using this
    have hq : ∀ t s, uniqueIfindex ifs t s = uniqueIfindex ifs' t s := by
      intro t s
      unfold uniqueIfindex
      rw [hu t, hl]
    unfold ifIdent regularIf virtualIf
    simp only [hq]
  have hf : (all.filter (fun i => i.node == n)).map NodeIf.strip =
      (all'.filter (fun i => i.node == n)).map NodeIf.strip := by
    have : ∀ ifs : List NodeIf, (ifs.filter (fun i => i.node == n)).map NodeIf.strip =
        (ifs.map NodeIf.strip).filter (fun i => i.node == n) := by
      intro ifs
      rw [List.filter_map]
      rfl
    rw [this all, this all', h]
  unfold newInterface
  simp only [key _ _ _ hf]

/-- All interfaces created one after another -/
def addAll (dev : String → NodeDev) :
    List NodeIf → List (Int × String × IfReq) → List NodeIf × Bool
  | _, [] => ([], true)
  | all, (l, n, r) :: rs =>
    let p := newInterface dev all l n r
    let q := addAll dev (all ++ [p.1]) rs
    (p.1 :: q.1, p.2 && q.2)

theorem addAll_strip (dev : String → NodeDev) (rs : List (Int × String × IfReq)) :
    ∀ all all' : List NodeIf, all.map NodeIf.strip = all'.map NodeIf.strip →
      addAll dev all rs = addAll dev all' rs := by
  induction rs with
  | nil => intros; rfl
  | cons x rs ih =>
    obtain ⟨l, n, r⟩ := x
    intro all all' h
    simp only [addAll]
    rw [newInterface_strip dev all all' h,
      ih (all ++ [(newInterface dev all' l n r).1]) (all' ++ [(newInterface dev all' l n r).1]) (by simp [h])]

theorem addAll_append (dev : String → NodeDev) (rs ss : List (Int × String × IfReq)) :
    ∀ all, addAll dev all (rs ++ ss) =
      ((addAll dev all rs).1 ++ (addAll dev (all ++ (addAll dev all rs).1) ss).1,
       (addAll dev all rs).2 && (addAll dev (all ++ (addAll dev all rs).1) ss).2) := by
  induction rs with
  | nil => intro all; simp [addAll]
  | cons x rs ih =>
    obtain ⟨l, n, r⟩ := x
    intro all
    simp only [List.cons_append, addAll, ih, List.append_assoc, List.nil_append, Bool.and_assoc]

theorem linkInterfaces_eq (dev : String → NodeDev) (l : Int) (rs : List (String × IfReq)) :
    ∀ all, linkInterfaces dev l all rs = addAll dev all (rs.map (fun x => (l, x.1, x.2))) := by
  induction rs with
  | nil => intro all; rfl
  | cons x rs ih =>
    obtain ⟨n, r⟩ := x
    intro all
    simp only [linkInterfaces, List.map_cons, addAll, ih]

theorem addAll_nbrs (dev : String → NodeDev) (rs : List (Int × String × IfReq)) :
    ∀ all, ((addAll dev all rs).1).map NodeIf.strip = (addAll dev all rs).1 := by
  induction rs with
  | nil => intro all; rfl
  | cons x rs ih =>
    obtain ⟨l, n, r⟩ := x
    intro all
    simp only [addAll, List.map_cons, ih]
    rfl

theorem setNeighbors_strip (ifs : List NodeIf) :
    (setNeighbors ifs).map NodeIf.strip = ifs.map NodeIf.strip := by
  unfold setNeighbors
  apply List.ext_getElem
  · simp
  · intro k h1 h2
    simp [NodeIf.strip]

theorem createInterfaces_flat (dev : String → NodeDev) (ls : List LinkReq) :
    ∀ all, ((createInterfaces dev all ls).1).map NodeIf.strip =
        all.map NodeIf.strip ++ (addAll dev all (flatReqs ls)).1 ∧
      (createInterfaces dev all ls).2 = (addAll dev all (flatReqs ls)).2 := by
  induction ls with
  | nil => intro all; simp [createInterfaces, flatReqs, addAll]
  | cons l ls ih =>
    intro all
    have hf : flatReqs (l :: ls) = l.ifs.map (fun x => (l.index, x.1, x.2)) ++ flatReqs ls := by
      simp [flatReqs]
    rw [hf, addAll_append]
    simp only [createInterfaces, linkInterfaces_eq]
    generalize hA : addAll dev all (l.ifs.map (fun x => (l.index, x.1, x.2))) = A
    have hs : (all ++ setNeighbors A.1).map NodeIf.strip = (all ++ A.1).map NodeIf.strip := by
      simp [setNeighbors_strip]
    have hA1 : A.1.map NodeIf.strip = A.1 := by rw [← hA]; exact addAll_nbrs ..
    obtain ⟨h1, h2⟩ := ih (all ++ setNeighbors A.1)
    rw [addAll_strip dev _ _ _ hs] at h1 h2
    constructor
    · rw [h1, hs]
      simp [hA1]
    · rw [h2]

/-- The `k`-th new interface is created from the `k`-th request, on top of all earlier ones. -/
theorem addAll_getElem (dev : String → NodeDev) (rs : List (Int × String × IfReq)) :
    ∀ all, (addAll dev all rs).1.length = rs.length ∧
      ∀ (k : Nat) (x : Int × String × IfReq), rs[k]? = some x →
        let p := newInterface dev (all ++ (addAll dev all rs).1.take k) x.1 x.2.1 x.2.2
        (addAll dev all rs).1[k]? = some p.1 ∧ ((addAll dev all rs).2 = true → p.2 = true) := by
  induction rs with
  | nil => intro all; simp [addAll]
  | cons y rs ih =>
    obtain ⟨l, n, r⟩ := y
    intro all
    simp only [addAll]
    obtain ⟨h1, h2⟩ := ih (all ++ [(newInterface dev all l n r).1])
    refine ⟨by simp [h1], ?_⟩
    intro k x hx
    cases k with
    | zero =>
      simp only [List.getElem?_cons_zero, Option.some.injEq] at hx
      subst hx
      simp only [List.take_zero, List.append_nil, List.getElem?_cons_zero, Bool.and_eq_true]
      exact ⟨trivial, fun h => h.1⟩
    | succ k =>
      simp only [List.getElem?_cons_succ] at hx
      have := h2 k x hx
      simp only [List.append_assoc, List.cons_append, List.nil_append] at this
      simp only [List.take_succ_cons, List.getElem?_cons_succ, Bool.and_eq_true]
      exact ⟨this.1, fun h => this.2 h.2⟩

theorem ifindexLoop_some {used : List Int} {k : Nat} {i j : Int}
    (h : ifindexLoop used k i = some j) : j ∉ used ∧ i ≤ j ∧ j < i + k ∧
      ∀ m, i ≤ m → m < j → m ∈ used := by
  induction k generalizing i with
  | zero => simp [ifindexLoop] at h
  | succ k ih =>
    simp only [ifindexLoop] at h
    split at h
    · rename_i hc
      obtain ⟨a, b, c, d⟩ := ih h
      refine ⟨a, by omega, by omega, ?_⟩
      intro m h1 h2
      by_cases hm : m = i
      · subst hm; simpa using hc
      · exact d m (by omega) h2
    · rename_i hc
      cases h
      refine ⟨by simpa using hc, by omega, by omega, ?_⟩
      intro m h1 h2
      omega

theorem ifindexLoop_none {used : List Int} {k : Nat} {i : Int}
    (h : ifindexLoop used k i = none) : ∀ m, i ≤ m → m < i + k → m ∈ used := by
  induction k generalizing i with
  | zero => intro m h1 h2; omega
  | succ k ih =>
    simp only [ifindexLoop] at h
    split at h
    · rename_i hc
      intro m h1 h2
      by_cases hm : m = i
      · subst hm; simpa using hc
      · exact ih h m (by omega) (by omega)
    · cases h

theorem mem_usedIndices {ifs : List NodeIf} {i : NodeIf} (hi : i ∈ ifs) (t : String) :
    (i.ty = some t → i.ifindex ∈ usedIndices ifs (some t)) ∧
    (isVirtual i.ty = false → i.ifindex ∈ usedIndices ifs none) := by
  unfold usedIndices
  constructor
  · intro h
    exact List.mem_map.2 ⟨i, List.mem_filter.2 ⟨hi, by simp [h]⟩, rfl⟩
  · intro h
    refine List.mem_map.2 ⟨i, List.mem_filter.2 ⟨hi, ?_⟩, rfl⟩
    simp only [isVirtual] at h
    simp [h]

/-- What an error-free creation of an interface says about its index -/
theorem newInterface_index {dev : String → NodeDev} {all : List NodeIf} {l : Int} {n : String}
    {r : IfReq} (hok : (newInterface dev all l n r).2 = true) :
    let i := (newInterface dev all l n r).1
    i.node = n ∧ i.ty = r.ty ∧ i.link = l ∧
    (∀ x, r.ifindex = some x → i.ifindex = x ∧ (isVirtual r.ty = false → (dev n).ifOffset.getD 1 ≤ x)) ∧
    (r.ifindex = none → isVirtual r.ty = false →
      i.ifindex ∉ usedIndices (all.filter (fun i => i.node == n)) none ∧
      (dev n).ifOffset.getD 1 ≤ i.ifindex ∧ i.ifindex < (dev n).ifOffset.getD 1 + 1000) ∧
    (r.ifindex = none → ∀ t, r.ty = some t → isVirtual r.ty = true →
      i.ifindex ∉ usedIndices (all.filter (fun i => i.node == n)) (some t) ∧
      virtStart (dev n) t ≤ i.ifindex ∧ i.ifindex < virtStart (dev n) t + 1000) := by
  simp only [newInterface] at hok ⊢
  generalize all.filter (fun i => i.node == n) = ifs at hok ⊢
  generalize dev n = d at hok ⊢
  refine ⟨trivial, trivial, trivial, ?_, ?_, ?_⟩
  · intro x hx
    unfold ifIdent at hok ⊢
    split at hok
    · rename_i t ht
      split at hok
      · rename_i hv
        rw [if_pos hv]
        unfold virtualIf at hok ⊢
        rw [hx] at hok ⊢
        simp only at hok ⊢
        rw [ht]
        refine ⟨?_, fun h => absurd h (by simp [hv])⟩
        split
        · rfl
        · split <;> rfl
      · rename_i hv
        rw [if_neg hv]
        unfold regularIf at hok ⊢
        rw [hx] at hok ⊢
        simp only [decide_eq_true_eq] at hok ⊢
        exact ⟨trivial, fun _ => hok⟩
    · unfold regularIf at hok ⊢
      rw [hx] at hok ⊢
      simp only [decide_eq_true_eq] at hok ⊢
      exact ⟨trivial, fun _ => hok⟩
  · intro hx hv
    have hI : ifIdent d ifs r = regularIf d ifs r := by
      unfold ifIdent
      split
      · rename_i t ht
        rw [ht] at hv
        rw [if_neg (by simp [hv])]
      · rfl
    rw [hI] at hok ⊢
    unfold regularIf at hok ⊢
    rw [hx] at hok ⊢
    simp only at hok ⊢
    unfold uniqueIfindex at hok ⊢
    split at hok
    · rename_i i hi
      obtain ⟨a, b, c, -⟩ := ifindexLoop_some hi
      exact ⟨a, b, by simpa using c⟩
    · cases hok
  · intro hx t ht hv
    have hI : ifIdent d ifs r = virtualIf d ifs t r := by
      unfold ifIdent
      rw [ht] at hv ⊢
      simp only [hv, if_true]
    rw [hI] at hok ⊢
    have hu : (uniqueIfindex ifs (some t) (virtStart d t)).2 = true := by
      unfold virtualIf at hok
      rw [hx] at hok
      simp only at hok
      split at hok
      · exact hok
      · split at hok
        · exact hok
        · cases hok
    have hi : (virtualIf d ifs t r).1 = (uniqueIfindex ifs (some t) (virtStart d t)).1 := by
      unfold virtualIf
      rw [hx]
      simp only
      split
      · rfl
      · split <;> rfl
    rw [hi]
    unfold uniqueIfindex at hu ⊢
    split at hu
    · rename_i i hi
      obtain ⟨a, b, c, -⟩ := ifindexLoop_some hi
      exact ⟨a, b, by simpa using c⟩
    · cases hu

end Netlab
