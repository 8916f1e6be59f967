import Verif.Model.DevCopy
import Verif.Spec.DevCopy
import Verif.Lemmas.Layers
import Verif.Props.Show
import Verif.Props.ToolRun
/-!
# C148: features copied or merged from other devices
-/

namespace Netlab

open Spec

theorem featAt_at (v : Val) (p : List String) : featAt v p = Val.at v p := by
  induction p generalizing v with
  | nil => simp [featAt, Val.at]
  | cons k p ih =>
    cases v with
    | dict d =>
      rw [featAt, Val.at]
      cases d.lookup k with
      | none => rfl
      | some w => exact ih w
    | _ => rfl

theorem at_featSet_same (v : Val) (p : List String) (r : Val) (h : Val.at r p ≠ none) : Val.at (featSet v p r) p = some v := by
  induction p generalizing r with
  | nil => simp [featSet, Val.at]
  | cons k p ih =>
    cases r with
    | dict d =>
      rw [at_dict_cons] at h
      rw [featSet]
      cases hl : d.lookup k with
      | none => rw [hl] at h; exact (h rfl).elim
      | some w =>
        rw [hl] at h
        dsimp only
        rw [at_dict_cons, lookup_setKey, if_pos rfl]
        exact ih w h
    | _ => exact (h rfl).elim

theorem at_featSet_other (v : Val) (p q : List String) (r : Val) (h1 : ¬ p <+: q) (h2 : ¬ q <+: p) : Val.at (featSet v p r) q = Val.at r q := by
  induction p generalizing r q with
  | nil => exact (h1 (List.nil_prefix)).elim
  | cons k p ih =>
    cases q with
    | nil => exact (h2 (List.nil_prefix)).elim
    | cons j q =>
      cases r with
      | dict d =>
        rw [featSet]
        cases hl : d.lookup k with
        | none => rfl
        | some w =>
          dsimp only
          rw [at_dict_cons, at_dict_cons, lookup_setKey]
          by_cases hj : j = k
          · subst hj
            rw [if_pos rfl, hl]
            simp only [Option.bind_some]
            apply ih
            · intro h; exact h1 (List.cons_prefix_cons.mpr ⟨rfl, h⟩)
            · intro h; exact h2 (List.cons_prefix_cons.mpr ⟨rfl, h⟩)
          · rw [if_neg hj]
      | _ => rfl

theorem isFeatReq_iff (d : List (String × Val)) : isFeatReq d = true ↔ HasFeatReq d := by
  unfold isFeatReq HasFeatReq
  rw [Bool.or_eq_true, Option.isSome_iff_exists, Option.isSome_iff_exists]

/-- The outermost requests, in the order in which they are processed -/
def featReqs (path : List String) : List (String × Val) → List (List String × List (String × Val))
  | [] => []
  | (k, .dict d) :: r =>
    (if isFeatReq d then [(path ++ [k], d)] else featReqs (path ++ [k]) d) ++ featReqs path r
  | (_, .null) :: r => featReqs path r
  | (_, .bool _) :: r => featReqs path r
  | (_, .int _) :: r => featReqs path r
  | (_, .str _) :: r => featReqs path r
  | (_, .list _) :: r => featReqs path r

theorem copyFeatures_fold (path : List String) (l : List (String × Val)) (root : Val) :
    copyFeatures path l root = (featReqs path l).foldlM (fun r x => applyFeatReq x.1 x.2 r) root := by
  fun_induction featReqs path l generalizing root with
  | case1 path => rw [copyFeatures]; rfl
  | case2 path k d r ih1 ih2 =>
    rw [copyFeatures, List.foldlM_append]
    by_cases h : isFeatReq d = true
    · rw [if_pos h, if_pos h]
      rw [List.foldlM_cons]
      cases applyFeatReq (path ++ [k]) d root with
      | none => rfl
      | some x => simpa using ih2 x
    · rw [if_neg h, if_neg h, ih1]
      cases (featReqs (path ++ [k]) d).foldlM (fun r x => applyFeatReq x.1 x.2 r) root with
      | none => rfl
      | some x => exact ih2 x
  | case3 path k r ih => rw [copyFeatures, ih]
  | case4 path k b r ih => rw [copyFeatures, ih]
  | case5 path k b r ih => rw [copyFeatures, ih]
  | case6 path k b r ih => rw [copyFeatures, ih]
  | case7 path k b r ih => rw [copyFeatures, ih]

/-- A request in a value of a dictionary -/
def ReqIn (w : Val) (t : List String) (d : List (String × Val)) : Prop :=
  Val.at w t = some (.dict d) ∧ HasFeatReq d ∧ ∀ q e, q <+: t → q ≠ t → Val.at w q = some (.dict e) → ¬ HasFeatReq e

theorem featReq_cons (l : List (String × Val)) (j : String) (t : List String) (d : List (String × Val)) :
    FeatReq l (j :: t) d ↔ ∃ w, l.lookup j = some w ∧ ReqIn w t d := by
  unfold FeatReq ReqIn
  rw [at_dict_cons]
  cases hl : l.lookup j with
  | none => simp
  | some w =>
    simp only [Option.bind_some, Option.some.injEq, exists_eq_left']
    constructor
    · rintro ⟨h1, _, h2, h3⟩
      refine ⟨h1, h2, fun q e hq hne ha => h3 (j :: q) e (List.cons_prefix_cons.mpr ⟨rfl, hq⟩) ?_ (by simp) ?_⟩
      · intro h; exact hne (List.cons.inj h).2
      · rw [at_dict_cons, hl]; exact ha
    · rintro ⟨h1, h2, h3⟩
      refine ⟨h1, by simp, h2, ?_⟩
      intro q e hq hne hn ha
      cases q with
      | nil => exact (hn rfl).elim
      | cons i q =>
        obtain ⟨rfl, hq'⟩ := List.cons_prefix_cons.mp hq
        rw [at_dict_cons, hl] at ha
        exact h3 q e hq' (fun h => hne (by rw [h])) ha

theorem reqIn_dict (e : List (String × Val)) (t : List String) (d : List (String × Val)) :
    ReqIn (.dict e) t d ↔ (HasFeatReq e ∧ t = [] ∧ d = e) ∨ (¬ HasFeatReq e ∧ FeatReq e t d) := by
  by_cases he : HasFeatReq e
  · constructor
    · rintro ⟨h1, _, h3⟩
      cases t with
      | nil =>
        simp only [Val.at, Option.some.injEq, Val.dict.injEq] at h1
        exact Or.inl ⟨he, rfl, h1.symm⟩
      | cons j t => exact (h3 [] e List.nil_prefix (by simp) rfl he).elim
    · rintro (⟨_, rfl, rfl⟩ | ⟨h, _⟩)
      · refine ⟨rfl, he, ?_⟩
        intro q x hq hne
        exact (hne (List.prefix_nil.mp hq)).elim
      · exact (h he).elim
  · constructor
    · rintro ⟨h1, h2, h3⟩
      refine Or.inr ⟨he, h1, ?_, h2, fun q x hq hne _ ha => h3 q x hq hne ha⟩
      rintro rfl
      simp only [Val.at, Option.some.injEq, Val.dict.injEq] at h1
      exact he (h1 ▸ h2)
    · rintro (⟨h, _⟩ | ⟨_, h1, hn, h2, h3⟩)
      · exact (he h).elim
      · refine ⟨h1, h2, ?_⟩
        intro q x hq hne ha
        by_cases hqn : q = []
        · subst hqn
          simp only [Val.at, Option.some.injEq, Val.dict.injEq] at ha
          exact ha ▸ he
        · exact h3 q x hq hne hqn ha

theorem reqIn_leaf {w : Val} (hw : w.isDict = false) (t : List String) (d : List (String × Val)) : ¬ ReqIn w t d := by
  rintro ⟨h, _⟩
  cases t with
  | nil =>
    simp only [Val.at, Option.some.injEq] at h
    subst h
    simp [Val.isDict] at hw
  | cons j t =>
    rw [at_leaf_cons hw] at h
    cases h

theorem featReq_step {k : String} {v : Val} {r : List (String × Val)} (hu : Val.UniqueKeys (.dict ((k, v) :: r))) (p d) :
    FeatReq ((k, v) :: r) p d ↔ (∃ t, p = k :: t ∧ ReqIn v t d) ∨ FeatReq r p d := by
  have hk := (uniqueKeys_cons hu).1
  cases p with
  | nil => simp [FeatReq]
  | cons j t =>
    rw [featReq_cons, featReq_cons]
    by_cases hj : j = k
    · subst hj
      have hn : r.lookup j = none := lookup_eq_none_iff.2 hk
      rw [List.lookup_cons, hn]
      simp
    · have : (j == k) = false := by simpa using hj
      rw [List.lookup_cons, this]
      simp [hj]

theorem mem_featReqs (path : List String) (l : List (String × Val)) (hu : Val.UniqueKeys (.dict l)) (p d) :
    (p, d) ∈ featReqs path l ↔ ∃ t, p = path ++ t ∧ FeatReq l t d := by
  have leaf : ∀ (k : String) (v : Val) (r : List (String × Val)), v.isDict = false → Val.UniqueKeys (.dict ((k, v) :: r)) → ∀ t,
      FeatReq ((k, v) :: r) t d ↔ FeatReq r t d := by
    intro k v r hv hu t
    rw [featReq_step hu]
    constructor
    · rintro (⟨_, _, h⟩ | h)
      · exact (reqIn_leaf hv _ _ h).elim
      · exact h
    · exact Or.inr
  fun_induction featReqs path l with
  | case1 path =>
    simp only [List.not_mem_nil, false_iff, not_exists, not_and]
    rintro t _ ⟨h, hn, _⟩
    cases t with
    | nil => exact hn rfl
    | cons j t => simp [Val.at] at h
  | case2 path k e r ih1 ih2 =>
    obtain ⟨hk, hu1, hu2⟩ := uniqueKeys_cons hu
    have hih : (p, d) ∈ featReqs path r ↔ ∃ t, p = path ++ t ∧ FeatReq r t d := ih2 hu2
    rw [List.mem_append, hih]
    have hstep : (∃ t, p = path ++ t ∧ FeatReq ((k, .dict e) :: r) t d) ↔
        (∃ t, p = path ++ [k] ++ t ∧ ReqIn (.dict e) t d) ∨ (∃ t, p = path ++ t ∧ FeatReq r t d) := by
      constructor
      · rintro ⟨t, h1, h2⟩
        rcases (featReq_step hu _ _).mp h2 with ⟨s, rfl, h⟩ | h
        · exact Or.inl ⟨s, by rw [h1]; simp, h⟩
        · exact Or.inr ⟨t, h1, h⟩
      · rintro (⟨t, h1, h2⟩ | ⟨t, h1, h2⟩)
        · exact ⟨k :: t, by rw [h1]; simp, (featReq_step hu _ _).mpr (Or.inl ⟨t, rfl, h2⟩)⟩
        · exact ⟨t, h1, (featReq_step hu _ _).mpr (Or.inr h2)⟩
    rw [hstep]
    apply or_congr _ Iff.rfl
    by_cases h : isFeatReq e = true
    · rw [if_pos h]
      have h' := (isFeatReq_iff e).mp h
      simp only [List.mem_singleton, Prod.mk.injEq, reqIn_dict, h', true_and, not_true_eq_false, false_and, or_false]
      constructor
      · rintro ⟨rfl, rfl⟩
        exact ⟨[], by simp, rfl, rfl⟩
      · rintro ⟨t, h1, rfl, rfl⟩
        exact ⟨by simpa using h1, rfl⟩
    · have hih1 : (p, d) ∈ featReqs (path ++ [k]) e ↔ ∃ t, p = path ++ [k] ++ t ∧ FeatReq e t d := ih1 hu1
      rw [if_neg h, hih1]
      have h' : ¬ HasFeatReq e := fun hh => h ((isFeatReq_iff e).mpr hh)
      simp only [reqIn_dict, h', false_and, not_false_eq_true, true_and, false_or]
  | case3 path k r ih => simp only [leaf k .null r rfl hu]; exact ih (uniqueKeys_cons hu).2.2
  | case4 path k b r ih => simp only [leaf k (.bool b) r rfl hu]; exact ih (uniqueKeys_cons hu).2.2
  | case5 path k b r ih => simp only [leaf k (.int b) r rfl hu]; exact ih (uniqueKeys_cons hu).2.2
  | case6 path k b r ih => simp only [leaf k (.str b) r rfl hu]; exact ih (uniqueKeys_cons hu).2.2
  | case7 path k b r ih => simp only [leaf k (.list b) r rfl hu]; exact ih (uniqueKeys_cons hu).2.2

theorem featReq_disjoint {l : List (String × Val)} {p q : List String} {d e : List (String × Val)} (hp : FeatReq l p d) (hq : FeatReq l q e)
    (h : p <+: q) : p = q := by
  by_cases he : p = q
  · exact he
  · exact (hq.2.2.2 p d h he hp.2.1 hp.1 hp.2.2.1).elim

/-- The value that has to be stored at the path of a request -/
def featTarget (l : List (String × Val)) (p : List String) (d : List (String × Val)) (s : String) : Option Val :=
  match Val.at (.dict l) (sameIn s p) with
  | none => none
  | some v => if (d.lookup "merge").isSome then
      match v with
      | .dict a => some (.dict (mergeDict a d))
      | _ => none
    else some v

/-- The data while requests are processed: values without requests are not changed, values at paths of requests exist, and requests in
a list were processed. -/
def FeatInv (l : List (String × Val)) (done : List (List String × List (String × Val))) (r : Val) : Prop :=
  (∀ q, NoFeatReq l q → Val.at r q = Val.at (.dict l) q) ∧ (∀ p d, FeatReq l p d → Val.at r p ≠ none) ∧
  ∀ x ∈ done, ∀ s, featReqSrc x.2 = some s → NoFeatReq l (sameIn s x.1) → Val.at r x.1 = featTarget l x.1 x.2 s

theorem applyFeatReq_eq (l : List (String × Val)) (p : List String) (d : List (String × Val)) (r : Val) (s : String)
    (hs : featReqSrc d = some s) (hn : NoFeatReq l (sameIn s p)) (hi : ∀ q, NoFeatReq l q → Val.at r q = Val.at (.dict l) q) :
    applyFeatReq p d r = (featTarget l p d s).map (fun v => featSet v p r) := by
  have := hi _ hn
  unfold sameIn at this
  unfold applyFeatReq featTarget
  rw [hs]
  dsimp only
  rw [featAt_at, this]
  unfold sameIn
  cases Val.at (.dict l) (s :: p.tail) with
  | none => rfl
  | some v =>
    dsimp only
    split
    · cases v <;> rfl
    · rfl

theorem applyFeatReq_set {p : List String} {d : List (String × Val)} {r r' : Val} (h : applyFeatReq p d r = some r') :
    ∃ v, r' = featSet v p r := by
  unfold applyFeatReq at h
  split at h
  · cases h
  · split at h
    · cases h
    · split at h
      · split at h
        · exact ⟨_, (Option.some.inj h).symm⟩
        · cases h
      · exact ⟨_, (Option.some.inj h).symm⟩

theorem featInv_step {l : List (String × Val)} {done : List (List String × List (String × Val))} {r r' : Val} {p : List String}
    {d : List (String × Val)} (hd : ∀ x ∈ done, FeatReq l x.1 x.2) (hp : FeatReq l p d) (hi : FeatInv l done r)
    (h : applyFeatReq p d r = some r') : FeatInv l (done ++ [(p, d)]) r' := by
  obtain ⟨v, rfl⟩ := applyFeatReq_set h
  obtain ⟨h1, h2, h3⟩ := hi
  have other : ∀ q e, FeatReq l q e → q ≠ p → Val.at (featSet v p r) q = Val.at r q := by
    intro q e hq hne
    apply at_featSet_other
    · intro hh; exact hne (featReq_disjoint hp hq hh).symm
    · intro hh; exact hne (featReq_disjoint hq hp hh)
  have same := at_featSet_same v p r (h2 p d hp)
  refine ⟨?_, ?_, ?_⟩
  · intro q hq
    obtain ⟨ha, hb⟩ := hq p d hp
    rw [at_featSet_other v p q r ha hb, h1 q hq]
  · intro q e hq
    by_cases hqp : q = p
    · rw [hqp, same]; simp
    · rw [other q e hq hqp]; exact h2 q e hq
  · intro x hx s hs hn
    have hxr : FeatReq l x.1 x.2 := by
      rcases List.mem_append.mp hx with hx | hx
      · exact hd x hx
      · rw [List.mem_singleton.mp hx]; exact hp
    by_cases hqp : x.1 = p
    · have hdd : x.2 = d := by
        have e1 := hxr.1
        have e2 := hp.1
        rw [hqp, e2] at e1
        simpa using e1.symm
      rw [hdd] at hs ⊢
      rw [hqp] at hn ⊢
      rw [applyFeatReq_eq l p d r s hs hn h1] at h
      cases ht : featTarget l p d s with
      | none => rw [ht] at h; cases h
      | some w =>
        rw [ht] at h
        have h := Option.some.inj h
        dsimp only at h
        rw [← h, at_featSet_same w p r (h2 p d hp)]
    · rw [other x.1 x.2 hxr hqp]
      rcases List.mem_append.mp hx with hx | hx
      · exact h3 x hx s hs hn
      · exact (hqp (by rw [List.mem_singleton.mp hx])).elim

theorem featInv_fold {l : List (String × Val)} (todo done : List (List String × List (String × Val))) (r r' : Val)
    (hd : ∀ x ∈ done, FeatReq l x.1 x.2) (ht : ∀ x ∈ todo, FeatReq l x.1 x.2) (hi : FeatInv l done r)
    (h : todo.foldlM (fun r x => applyFeatReq x.1 x.2 r) r = some r') : FeatInv l (done ++ todo) r' := by
  induction todo generalizing done r with
  | nil =>
    have : r = r' := by simpa using h
    rw [List.append_nil, ← this]
    exact hi
  | cons x t ih =>
    rw [List.foldlM_cons] at h
    cases hx : applyFeatReq x.1 x.2 r with
    | none => rw [hx] at h; cases h
    | some r1 =>
      rw [hx] at h
      have := ih (done ++ [x]) r1 (by
        intro y hy
        rcases List.mem_append.mp hy with hy | hy
        · exact hd y hy
        · rw [List.mem_singleton.mp hy]; exact ht x (by simp)) (fun y hy => ht y (List.mem_cons_of_mem _ hy))
        (featInv_step hd (ht x (by simp)) hi hx) h
      simpa using this

theorem featInv_start (l : List (String × Val)) : FeatInv l [] (.dict l) := by
  refine ⟨fun _ _ => rfl, fun p d h => ?_, by simp⟩
  rw [h.1]
  simp

theorem featReqSrc_merge {d : List (String × Val)} {s : String} (h : MergeFrom d s) : featReqSrc d = some s := by
  unfold featReqSrc
  rw [h.1]
  have : (Val.str s).truthy = true := by simpa [Val.truthy] using h.2
  simp [this]

theorem featReqSrc_copy {d : List (String × Val)} {s : String} (h : CopyFrom d s) : featReqSrc d = some s := by
  unfold featReqSrc
  rw [h.1, h.2]

theorem copyDev_reqs {l : List (String × Val)} (hu : Val.UniqueKeys (.dict l)) (p d) : (p, d) ∈ featReqs [] l ↔ FeatReq l p d := by
  rw [mem_featReqs [] l hu]
  simp

theorem copyDev_inv {l : List (String × Val)} (hu : Val.UniqueKeys (.dict l)) {r : Val} (h : copyDevFeatures l = some r) :
    FeatInv l (featReqs [] l) r := by
  unfold copyDevFeatures at h
  rw [copyFeatures_fold] at h
  have := featInv_fold (featReqs [] l) [] (.dict l) r (by simp) (fun x hx => (copyDev_reqs hu x.1 x.2).mp hx) (featInv_start l) h
  simpa using this

/-- **C148**: values that are not a part of a request are not changed. -/
theorem C148_unchanged (l : List (String × Val)) (hu : Val.UniqueKeys (.dict l)) (r : Val) (h : copyDevFeatures l = some r)
    (q : List String) (hq : NoFeatReq l q) : Val.at r q = Val.at (.dict l) q := (copyDev_inv hu h).1 q hq

/-- **C148**: a request to copy data from another device is replaced with the data the other device has at the same place. -/
theorem C148_copy (l : List (String × Val)) (hu : Val.UniqueKeys (.dict l)) (r : Val) (h : copyDevFeatures l = some r)
    (p : List String) (d : List (String × Val)) (s : String) (hp : FeatReq l p d) (hs : CopyFrom d s) (hn : NoFeatReq l (sameIn s p)) :
    Val.at r p = Val.at (.dict l) (sameIn s p) := by
  have := (copyDev_inv hu h).2.2 (p, d) ((copyDev_reqs hu p d).mpr hp) s (featReqSrc_copy hs) hn
  rw [this]
  unfold featTarget
  dsimp only
  rw [hs.1]
  cases Val.at (.dict l) (sameIn s p) <;> rfl

/-- **C148**: a request to merge data with the data of another device results in a combination of both: own settings take precedence.
(defect: own settings include the request.) -/
theorem C148_merge (l : List (String × Val)) (hu : Val.UniqueKeys (.dict l)) (r : Val) (h : copyDevFeatures l = some r)
    (p : List String) (d : List (String × Val)) (s : String) (hp : FeatReq l p d) (hs : MergeFrom d s) (hn : NoFeatReq l (sameIn s p)) :
    ∃ a m, Val.at (.dict l) (sameIn s p) = some (.dict a) ∧ Val.at r p = some (.dict m) ∧
      ∀ q w, Val.leafAt (.dict m) q w ↔ Val.leafAt (.dict d) q w ∨ (Val.leafAt (.dict a) q w ∧ Untouched (.dict d) q) := by
  have hi := copyDev_inv hu h
  have ht := hi.2.2 (p, d) ((copyDev_reqs hu p d).mpr hp) s (featReqSrc_merge hs) hn
  have hne := hi.2.1 p d hp
  dsimp only at ht
  rw [ht] at hne
  unfold featTarget at ht hne
  rw [hs.1] at ht hne
  cases hv : Val.at (.dict l) (sameIn s p) with
  | none => rw [hv] at hne; exact (hne rfl).elim
  | some v =>
    rw [hv] at ht hne
    cases v with
    | dict a =>
      simp only [Option.isSome_some, if_true] at ht
      refine ⟨a, mergeDict a d, rfl, ht, ?_⟩
      intro q w
      have ud : Val.UniqueKeys (.dict d) := by
        intro q' d' hq'
        refine hu (p ++ q') d' ?_
        rw [at_append, hp.1]
        exact hq'
      have := mergeVal_leaves (.dict a) (.dict d) rfl rfl ud q w
      rw [mergeVal_dict] at this
      exact this
    | _ => exact (hne rfl).elim

/-- **C148**: valid requests are always processed. -/
theorem C148_valid (l : List (String × Val)) (hu : Val.UniqueKeys (.dict l)) (hv : ∀ p d, FeatReq l p d → ValidFeatReq l p d) :
    ∃ r, copyDevFeatures l = some r := by
  unfold copyDevFeatures
  rw [copyFeatures_fold]
  have key : ∀ (todo done : List (List String × List (String × Val))) (r : Val), (∀ x ∈ done, FeatReq l x.1 x.2) →
      (∀ x ∈ todo, FeatReq l x.1 x.2) → FeatInv l done r → ∃ r', todo.foldlM (fun r x => applyFeatReq x.1 x.2 r) r = some r' := by
    intro todo
    induction todo with
    | nil => intro done r _ _ _; exact ⟨r, rfl⟩
    | cons x t ih =>
      intro done r hd ht hi
      have hx := ht x (by simp)
      have hsome : ∃ r1, applyFeatReq x.1 x.2 r = some r1 := by
        obtain ⟨s, hn, (⟨hm, a, ha⟩ | ⟨hc, v, hv⟩)⟩ := hv x.1 x.2 hx
        · rw [applyFeatReq_eq l x.1 x.2 r s (featReqSrc_merge hm) hn hi.1]
          unfold featTarget
          rw [ha, hm.1]
          exact ⟨_, rfl⟩
        · rw [applyFeatReq_eq l x.1 x.2 r s (featReqSrc_copy hc) hn hi.1]
          unfold featTarget
          rw [hv, hc.1]
          exact ⟨_, rfl⟩
      obtain ⟨r1, h1⟩ := hsome
      rw [List.foldlM_cons, h1]
      exact ih (done ++ [x]) r1 (by
        intro y hy
        rcases List.mem_append.mp hy with hy | hy
        · exact hd y hy
        · rw [List.mem_singleton.mp hy]; exact hx) (fun y hy => ht y (List.mem_cons_of_mem _ hy)) (featInv_step hd hx hi h1)
  exact key _ [] _ (by simp) (fun x hx => (copyDev_reqs hu x.1 x.2).mp hx) (featInv_start l)

/-- **C148**: a request that refers to data that do not exist is a fatal error. -/
theorem C148_missing (l : List (String × Val)) (hu : Val.UniqueKeys (.dict l)) (p : List String) (d : List (String × Val)) (s : String)
    (hp : FeatReq l p d) (hs : MergeFrom d s ∨ CopyFrom d s) (hn : NoFeatReq l (sameIn s p)) (hm : Val.at (.dict l) (sameIn s p) = none) :
    copyDevFeatures l = none := by
  cases h : copyDevFeatures l with
  | none => rfl
  | some r =>
    rcases hs with hs | hs
    · obtain ⟨a, m, ha, _⟩ := C148_merge l hu r h p d s hp hs hn
      rw [hm] at ha
      cases ha
    · have h1 := C148_copy l hu r h p d s hp hs hn
      rw [hm] at h1
      exact ((copyDev_inv hu h).2.1 p d hp h1).elim

/-- **C148** (defect): when the data of the other device have a request that is processed later, that request is copied and never
processed. -/
theorem C148_order : copyDevFeatures
      [("csr", .dict [("features", .dict [("bgp", .dict [("copy", .str "ios")])])]),
       ("ios", .dict [("features", .dict [("bgp", .dict [("copy", .str "eos")])])]),
       ("eos", .dict [("features", .dict [("bgp", .dict [("x", .bool true)])])])] =
    some (.dict [("csr", .dict [("features", .dict [("bgp", .dict [("copy", .str "eos")])])]),
       ("ios", .dict [("features", .dict [("bgp", .dict [("x", .bool true)])])]),
       ("eos", .dict [("features", .dict [("bgp", .dict [("x", .bool true)])])])]) := by decide +kernel

/-! ### Examples -/

/-- Devices with two requests -/
def demoCopy : List (String × Val) :=
  [("ios", .dict [("features", .dict [("bgp", .dict [("x", .bool true), ("y", .int 1)])])]),
   ("csr", .dict [("features", .dict [("bgp", .dict [("merge", .str "ios"), ("y", .int 2)])])]),
   ("iosv", .dict [("copy", .str "ios")])]

theorem demoCopy_unique : Val.UniqueKeys (.dict demoCopy) := by
  unfold demoCopy
  repeat' (first
    | exact trivial
    | (apply uniqueKeys_leaf; rfl)
    | (apply uniqueKeys_of_mem; · decide)
    | constructor)

theorem demoCopy_reqs (p d) : FeatReq demoCopy p d ↔
    (p = ["csr", "features", "bgp"] ∧ d = [("merge", .str "ios"), ("y", .int 2)]) ∨ (p = ["iosv"] ∧ d = [("copy", .str "ios")]) := by
  rw [← copyDev_reqs demoCopy_unique]
  have : featReqs [] demoCopy = [(["csr", "features", "bgp"], [("merge", .str "ios"), ("y", .int 2)]), (["iosv"], [("copy", .str "ios")])] := by
    simp [featReqs, demoCopy, isFeatReq, List.lookup]
  rw [this]
  simp

/-- The hypotheses of all theorems are met. -/
example : ∀ p d, FeatReq demoCopy p d → ValidFeatReq demoCopy p d := by
  have no : ∀ q, (∃ t, q = "ios" :: t) → NoFeatReq demoCopy q := by
    rintro q ⟨t, rfl⟩ p d h
    rcases (demoCopy_reqs p d).mp h with ⟨rfl, rfl⟩ | ⟨rfl, rfl⟩ <;> simp [List.cons_prefix_cons]
  intro p d h
  refine ⟨"ios", no _ ⟨_, rfl⟩, ?_⟩
  rcases (demoCopy_reqs p d).mp h with ⟨rfl, rfl⟩ | ⟨rfl, rfl⟩
  · exact Or.inl ⟨⟨rfl, by decide⟩, _, rfl⟩
  · exact Or.inr ⟨⟨rfl, rfl⟩, _, rfl⟩

example : copyDevFeatures
      [("ios", .dict [("features", .dict [("bgp", .dict [("x", .bool true), ("y", .int 1)])])]),
       ("csr", .dict [("features", .dict [("bgp", .dict [("merge", .str "ios"), ("y", .int 2)])])]),
       ("iosv", .dict [("copy", .str "ios")])] =
    some (.dict [("ios", .dict [("features", .dict [("bgp", .dict [("x", .bool true), ("y", .int 1)])])]),
       ("csr", .dict [("features", .dict [("bgp", .dict [("x", .bool true), ("y", .int 2), ("merge", .str "ios")])])]),
       ("iosv", .dict [("features", .dict [("bgp", .dict [("x", .bool true), ("y", .int 1)])])])]) := by decide +kernel

end Netlab
